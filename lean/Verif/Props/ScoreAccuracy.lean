import Verif.Props.Membership
/-!
# Property C164: accuracy of the classification scores in floating point

The scores `csu_fhc_summer` computes in floating point are within 0.004 of the weighted means and products of the exact membership values.
-/
namespace Csu.Fhc
open Tables PyFloat IeeeFloat FhcSpec Csu.Rain Csu.Dsd
variable {α : Type} [IeeeFloat α]

/-- adding up a few numbers that are each off by at most `d`: every addition adds at most `3εB` -/
theorem sum_close {ι : Type} (B d : ℝ) (hB : 2 ^ (-20 : ℤ) ≤ B) (hB' : B ≤ 2 ^ (30 : ℤ)) (hd : 0 ≤ d) (hd' : 10 * (d + 3 * ε * B) ≤ B) (u : ι → α) (x : ι → ℝ) :
    ∀ (ks : List ι) (a : α) (A : ℝ) (n : ℕ), (∀ k ∈ ks, 0 ≤ x k ∧ ∃ r : ℝ, val (u k) = .fin r ∧ |r - x k| ≤ d) →
      (∃ r : ℝ, val a = .fin r ∧ |r - A| ≤ n * (d + 3 * ε * B)) → 0 ≤ A → A + (ks.map x).sum ≤ B → n + ks.length ≤ 9 →
      ∃ r : ℝ, val ((ks.map u).foldl (· + ·) a) = .fin r ∧ |r - (A + (ks.map x).sum)| ≤ (n + ks.length : ℕ) * (d + 3 * ε * B)
  | [], a, A, n, _, ha, _, _, _ => by simpa using ha
  | k :: ks, a, A, n, h, ⟨r, hr, hr1⟩, hA, hs, hn => by
    obtain ⟨x0, t, ht, ht1⟩ := h k (by simp)
    rw [List.map_cons, List.sum_cons] at hs
    rw [List.length_cons] at hn
    have rest : 0 ≤ (ks.map x).sum := List.sum_nonneg (by
      intro y hy
      obtain ⟨j, hj, rfl⟩ := List.mem_map.mp hy
      exact (h j (by simp [hj])).1)
    have Bp : 0 < B := _root_.lt_of_lt_of_le (by positivity) hB
    have εp := ε_pos
    have step0 : 0 ≤ d + 3 * ε * B := by positivity
    have hn' : (n : ℝ) ≤ 8 := by exact_mod_cast (by omega : n ≤ 8)
    have hnd : n * (d + 3 * ε * B) ≤ 8 * (d + 3 * ε * B) := by gcongr
    have e1 : |r + t - (A + x k)| ≤ n * (d + 3 * ε * B) + d := by
      calc |r + t - (A + x k)| = |(r - A) + (t - x k)| := by ring_nf
        _ ≤ _ := (abs_add_le _ _).trans (add_le_add hr1 ht1)
    have e2 : |r + t| ≤ 2 * B := by
      have h1 := abs_sub_abs_le_abs_sub (r + t) (A + x k)
      rw [abs_of_nonneg (show 0 ≤ A + x k by linarith)] at h1
      have : 0 ≤ 3 * ε * B := by positivity
      linarith
    obtain ⟨v, hv, hv1⟩ := Ieee.rnd_near (α := α) (x := r + t) (e2.trans (by
      calc 2 * B ≤ 2 * 2 ^ (30 : ℤ) := by gcongr
        _ ≤ _ := by norm_num))
    have hv' : val (a + u k) = .fin v := by rw [Ieee.vadd, hr, ht, XR.fadd]; exact hv
    have e3 : |v - (r + t)| ≤ 3 * ε * B := by
      have h1 : (2 : ℝ) ^ (-20 : ℤ) * |r + t| ≤ ε * (2 * B) := by unfold ε; gcongr
      have h2 : (2 : ℝ) ^ (-100 : ℤ) ≤ ε * B := by
        calc (2 : ℝ) ^ (-100 : ℤ) ≤ 2 ^ (-20 : ℤ) * 2 ^ (-20 : ℤ) := by norm_num
          _ ≤ ε * B := by unfold ε; gcongr
      linarith
    have e4 : |v - (A + x k)| ≤ ((n + 1 : ℕ) : ℝ) * (d + 3 * ε * B) := by
      push_cast
      calc |v - (A + x k)| = |(v - (r + t)) + (r + t - (A + x k))| := by ring_nf
        _ ≤ _ := (abs_add_le _ _).trans (add_le_add e3 e1)
        _ = _ := by ring
    obtain ⟨q, hq, hq1⟩ := sum_close B d hB hB' hd hd' u x ks (a + u k) (A + x k) (n + 1) (fun j hj => h j (by simp [hj])) ⟨v, hv', e4⟩
      (by linarith) (by linarith) (by omega)
    refine ⟨q, by rw [List.map_cons, List.foldl_cons]; exact hq, ?_⟩
    rw [List.map_cons, List.sum_cons, List.length_cons]
    have e : A + (x k + (ks.map x).sum) = A + x k + (ks.map x).sum := by ring
    have e' : n + (ks.length + 1) = n + 1 + ks.length := by omega
    rw [e, e']
    exact hq1

/-- a quotient of two sums, both nearly right -/
theorem ratio_close {S T s t : ℝ} (hs : 0 ≤ s) (hst : s ≤ t) (ht : 0 < t) (h1 : |S - s| ≤ 48 * ε * t) (h2 : |T - t| ≤ 48 * ε * t) :
    0 < T ∧ |S / T - s / t| ≤ 100 * ε := by
  have εp := ε_pos
  have εs : ε ≤ 1 / 1000000 := by unfold ε; norm_num
  have hT : 96 / 100 * t ≤ T := by
    have := (abs_le.mp h2).1
    have : 48 * ε * t ≤ 4 / 100 * t := by gcongr; linarith
    linarith
  have T0 : 0 < T := by linarith
  refine ⟨T0, ?_⟩
  have e : S / T - s / t = ((S - s) * t - s * (T - t)) / (T * t) := by field_simp; ring
  rw [e, abs_div, abs_of_pos (mul_pos T0 ht), div_le_iff₀ (mul_pos T0 ht)]
  calc |(S - s) * t - s * (T - t)| ≤ |(S - s) * t| + |s * (T - t)| := abs_sub _ _
    _ = |S - s| * t + s * |T - t| := by rw [abs_mul, abs_mul, abs_of_pos ht, abs_of_nonneg hs]
    _ ≤ 48 * ε * t * t + t * (48 * ε * t) := by gcongr
    _ = 100 * ε * (96 / 100 * t * t) := by ring
    _ ≤ 100 * ε * (T * t) := by gcongr

/-- the same over the classifier's own list of variables -/
noncomputable def meanV (hybrid : Bool) (P : Key → Bool) (w e : Key → ℝ) : ℝ :=
  (((varlist hybrid).filter P).map (fun k => w k * e k)).sum / (((varlist hybrid).filter P).map w).sum

/-- the total weight of the supplied variables the method averages -/
noncomputable def totalV (hybrid : Bool) (P : Key → Bool) (w : Key → ℝ) : ℝ := (((varlist hybrid).filter P).map w).sum

theorem sum_filter {ι : Type} (P : ι → Bool) (w : ι → ℝ) : ∀ l : List ι, (l.map (fun k => if P k then w k else 0)).sum = ((l.filter P).map w).sum
  | [] => rfl
  | k :: l => by
    have ih := sum_filter P w l
    cases h : P k <;> simp [List.filter_cons, h, ih]

theorem sum_le_of {ι : Type} (x y : ι → ℝ) : ∀ l : List ι, (∀ k ∈ l, x k ≤ y k) → (l.map x).sum ≤ (l.map y).sum
  | [], _ => by simp
  | k :: l, h => by
    have ih := sum_le_of x y l (fun j hj => h j (by simp [hj]))
    have := h k (by simp)
    simp only [List.map_cons, List.sum_cons]
    linarith

theorem le_sum {ι : Type} (x : ι → ℝ) : ∀ l : List ι, (∀ k ∈ l, 0 ≤ x k) → ∀ k ∈ l, x k ≤ (l.map x).sum
  | j :: l, h, k, hk => by
    have h0 := h j (by simp)
    have hr : 0 ≤ (l.map x).sum := List.sum_nonneg (by
      intro y hy
      obtain ⟨i, hi, rfl⟩ := List.mem_map.mp hy
      exact h i (by simp [hi]))
    simp only [List.map_cons, List.sum_cons]
    rcases List.mem_cons.mp hk with rfl | hk
    · linarith
    · have := le_sum x l (fun i hi => h i (by simp [hi])) k hk
      linarith

/-- means of close values -/
theorem mean_close {ι : Type} (w e e' : ι → ℝ) (δ : ℝ) (l : List ι) (hw : ∀ k ∈ l, 0 ≤ w k) (ht : 0 < (l.map w).sum) (h : ∀ k ∈ l, |e k - e' k| ≤ δ) :
    |(l.map (fun k => w k * e k)).sum / (l.map w).sum - (l.map (fun k => w k * e' k)).sum / (l.map w).sum| ≤ δ := by
  rw [← sub_div, abs_div, abs_of_pos ht, div_le_iff₀ ht]
  have key : ∀ l : List ι, (∀ k ∈ l, 0 ≤ w k) → (∀ k ∈ l, |e k - e' k| ≤ δ) →
      |(l.map (fun k => w k * e k)).sum - (l.map (fun k => w k * e' k)).sum| ≤ δ * (l.map w).sum := by
    intro l
    induction l with
    | nil => intro _ _; simp
    | cons k l ih =>
      intro hw h
      have h1 := ih (fun j hj => hw j (by simp [hj])) (fun j hj => h j (by simp [hj]))
      have w0 := hw k (by simp)
      have h2 : |w k * (e k - e' k)| ≤ w k * δ := by
        rw [abs_mul, abs_of_nonneg w0]
        exact mul_le_mul_of_nonneg_left (h k (by simp)) w0
      simp only [List.map_cons, List.sum_cons]
      calc _ = |w k * (e k - e' k) + ((l.map (fun k => w k * e k)).sum - (l.map (fun k => w k * e' k)).sum)| := by ring_nf
        _ ≤ _ := (abs_add_le _ _).trans (add_le_add h2 h1)
        _ = _ := by ring
  exact key l hw h

/-- the weighted mean in floating point, membership values from 0 to 1 -/
theorem gPol_close {P : Key → Bool} {u hybrid : Bool} {W : Key → Nat → α} {sets : Sets α} {c : Nat} {g : Key → α} {w μ : Key → ℝ}
    (hw : ∀ k, val (W k c) = .fin (w k)) (hw0 : ∀ k, 0 ≤ w k) (hw1 : ∀ k, w k ≤ 2 ^ 20)
    (hm : ∀ k, P k = true → (k = .T → effTemp P u = true) → val (gMember sets c k g) = .fin (μ k) ∧ 0 ≤ μ k ∧ μ k ≤ 1)
    (hlin : hybrid = false → P .T = true → effTemp P u = true)
    (hpos : 2 ^ (-20 : ℤ) ≤ totalV hybrid P w) :
    ∃ r : ℝ, val (gPol (cfg P u W sets hybrid false) c g) = .fin r ∧ |r - meanV hybrid P w μ| ≤ 110 * ε := by
  have hvar : ∀ k ∈ varlist hybrid, P k = true → (k = .T → effTemp P u = true) := by
    intro k hk hp hT
    subst hT
    cases hybrid with
    | true => exact absurd rfl (mem_varlist_hybrid hk).1
    | false => exact hlin rfl hp
  have v1 : ∀ k, P k = true → (k = .T → effTemp P u = true) → (cfg P u W sets hybrid false).vars k = 1 := by
    intro k hp hT
    show (if _ then 1 else 0) = 1
    rw [if_pos]
    by_cases hk : k = .T
    · simp [hp, hT hk]
    · simp [hp, hk]
  have v0 : ∀ k, P k = false → (cfg P u W sets hybrid false).vars k = 0 := by
    intro k hp
    show (if _ then 1 else 0) = 0
    rw [if_neg]; simp [hp]
  let U : Key → α := fun k => PyFloat.ofNat ((cfg P u W sets hybrid false).vars k) * W k c
  have hU1 : ∀ k ∈ varlist hybrid, P k = true → val (U k) = .fin (w k) := by
    intro k hk hp
    show val (PyFloat.ofNat _ * _) = _
    rw [v1 k hp (hvar k hk hp)]; exact weight_one (hw k)
  have hU0 : ∀ k, P k = false → val (U k) = .fin 0 := by
    intro k hp
    show val (PyFloat.ofNat _ * _) = _
    rw [v0 k hp]; exact weight_zero (hw k)
  have hused : usedKeys (cfg P u W sets hybrid false) = (varlist hybrid).filter P := by
    unfold usedKeys
    show (varlist hybrid).filter _ = _
    congr 1
    funext k
    show (if P k then some [] else none : Option (List α)).isSome = P k
    cases P k <;> rfl
  have εp := ε_pos
  have εs : ε ≤ 1 / 1000000 := by unfold ε; norm_num
  set t := totalV hybrid P w with ht
  have t0 : 0 < t := _root_.lt_of_lt_of_le (by positivity) hpos
  have hlen : (varlist hybrid).length ≤ 6 := varlist_length hybrid
  have flen : ((varlist hybrid).filter P).length ≤ 6 := (List.length_filter_le _ _).trans hlen
  have tle : t ≤ 2 ^ (30 : ℤ) := by
    have h1 : ∀ l : List Key, (l.map w).sum ≤ l.length * 2 ^ 20 := by
      intro l
      induction l with
      | nil => simp
      | cons k l ih =>
        have := hw1 k
        simp only [List.map_cons, List.sum_cons, List.length_cons]
        push_cast
        linarith
    have h2 : (((varlist hybrid).filter P).length : ℝ) ≤ 6 := by exact_mod_cast flen
    calc t ≤ _ := h1 _
      _ ≤ 6 * 2 ^ 20 := by gcongr
      _ ≤ _ := by norm_num
  have tiny : (2 : ℝ) ^ (-100 : ℤ) ≤ ε * t := by
    calc (2 : ℝ) ^ (-100 : ℤ) ≤ 2 ^ (-20 : ℤ) * 2 ^ (-20 : ℤ) := by norm_num
      _ ≤ ε * t := by unfold ε; gcongr
  have εt : ε * t ≤ 1 / 1000000 * t := by gcongr
  have εt0 : 0 ≤ ε * t := by positivity
  -- the numerator
  have hmem : ∀ k ∈ (varlist hybrid).filter P, k ∈ varlist hybrid ∧ P k = true := fun k hk => List.mem_filter.mp hk
  have hterm : ∀ k ∈ (varlist hybrid).filter P, 0 ≤ w k * μ k ∧
      ∃ r : ℝ, val (gTerm (cfg P u W sets hybrid false) c g k) = .fin r ∧ |r - w k * μ k| ≤ 2 * ε * t := by
    intro k hk
    obtain ⟨hk1, hk2⟩ := hmem k hk
    obtain ⟨m1, m2, m3⟩ := hm k hk2 (hvar k hk1 hk2)
    have p0 : 0 ≤ w k * μ k := mul_nonneg (hw0 k) m2
    have p1 : w k * μ k ≤ w k := mul_le_of_le_one_right (hw0 k) m3
    have p2 : w k ≤ t := le_sum w _ (fun j _ => hw0 j) k hk
    refine ⟨p0, ?_⟩
    have e : gTerm (cfg P u W sets hybrid false) c g k = U k * gMember sets c k g := by
      unfold gTerm
      rw [if_neg (by simp [cfg])]
      rfl
    obtain ⟨r, hr, hr1⟩ := Ieee.rnd_near (α := α) (x := w k * μ k) (by
      rw [abs_of_nonneg p0]
      exact (p1.trans (p2.trans tle)).trans (by norm_num))
    refine ⟨r, by rw [e, Ieee.vmul, hU1 k hk1 hk2, m1, XR.fmul]; exact hr, hr1.trans ?_⟩
    rw [abs_of_nonneg p0]
    have : (2 : ℝ) ^ (-20 : ℤ) * (w k * μ k) ≤ ε * t := by
      unfold ε
      exact mul_le_mul_of_nonneg_left (p1.trans p2) (by positivity)
    linarith
  have hz : ∀ y : ℝ, ∃ r : ℝ, val (0 : α) = .fin r ∧ |r - 0| ≤ ((0 : ℕ) : ℝ) * y := fun y => ⟨0, Ieee.vzero, by simp⟩
  have hnum : (((varlist hybrid).filter P).map (fun k => w k * μ k)).sum ≤ t := sum_le_of _ _ _ (fun k hk => by
    obtain ⟨hk1, hk2⟩ := hmem k hk
    exact mul_le_of_le_one_right (hw0 k) (hm k hk2 (hvar k hk1 hk2)).2.2)
  have hnum0 : 0 ≤ (((varlist hybrid).filter P).map (fun k => w k * μ k)).sum := List.sum_nonneg (by
    intro y hy
    obtain ⟨j, hj, rfl⟩ := List.mem_map.mp hy
    exact (hterm j hj).1)
  obtain ⟨S, hS, hS1⟩ := sum_close (α := α) t (2 * ε * t) hpos tle (by positivity) (by linarith) (gTerm (cfg P u W sets hybrid false) c g) (fun k => w k * μ k)
    ((varlist hybrid).filter P) 0 0 0 hterm (hz _) (_root_.le_refl _) (by rw [zero_add]; exact hnum) (by omega)
  -- the denominator
  have hden : ∀ k ∈ varlist hybrid, 0 ≤ (if P k then w k else 0) ∧ ∃ r : ℝ, val (U k) = .fin r ∧ |r - (if P k then w k else 0)| ≤ 0 := by
    intro k hk
    cases hp : P k with
    | true => exact ⟨by simpa using hw0 k, w k, hU1 k hk hp, by simp⟩
    | false => exact ⟨by simp, 0, hU0 k hp, by simp⟩
  obtain ⟨T, hT, hT1⟩ := sum_close (α := α) t 0 hpos tle (_root_.le_refl _) (by linarith) U (fun k => if P k then w k else 0)
    (varlist hybrid) 0 0 0 hden (hz _) (_root_.le_refl _) (by rw [zero_add, sum_filter]; exact _root_.le_refl _) (by omega)
  rw [zero_add, zero_add] at hS1 hT1
  rw [sum_filter] at hT1
  have l1 : ((((varlist hybrid).filter P).length : ℕ) : ℝ) ≤ 6 := by exact_mod_cast flen
  have l2 : (((varlist hybrid).length : ℕ) : ℝ) ≤ 6 := by exact_mod_cast hlen
  have hS2 : |S - (((varlist hybrid).filter P).map (fun k => w k * μ k)).sum| ≤ 48 * ε * t := by
    refine hS1.trans ?_
    calc _ ≤ 6 * (2 * ε * t + 3 * ε * t) := by gcongr
      _ ≤ _ := by linarith
  have hT2 : |T - t| ≤ 48 * ε * t := by
    refine hT1.trans ?_
    calc _ ≤ 6 * (0 + 3 * ε * t) := by gcongr
      _ ≤ _ := by linarith
  obtain ⟨T0, hr⟩ := ratio_close hnum0 hnum t0 hS2 hT2
  have hw' : val (weightSum (cfg P u W sets hybrid false) c) = .fin T := hT
  have hS' : val (npSum (((varlist hybrid).filter P).map (gTerm (cfg P u W sets hybrid false) c g))) = .fin S := hS
  have q1 : (((varlist hybrid).filter P).map (fun k => w k * μ k)).sum / t ≤ 1 := by rw [div_le_one t0]; exact hnum
  have q0 : 0 ≤ (((varlist hybrid).filter P).map (fun k => w k * μ k)).sum / t := by positivity
  have hST : |S / T| ≤ 2 := by
    have h1 := abs_sub_abs_le_abs_sub (S / T) ((((varlist hybrid).filter P).map (fun k => w k * μ k)).sum / t)
    rw [abs_of_nonneg q0] at h1
    linarith
  obtain ⟨v, hv, hv1⟩ := Ieee.rnd_near (α := α) (x := S / T) (hST.trans (by norm_num))
  refine ⟨v, ?_, ?_⟩
  · unfold gPol
    rw [hused, Ieee.vdiv _ _ (by rw [hw']; simpa using T0.ne'), hw', hS', XR.fdiv T0.ne']
    exact hv
  · have h2 : |v - S / T| ≤ 4 * ε := by
      refine hv1.trans ?_
      calc (2 : ℝ) ^ (-20 : ℤ) * |S / T| + 2 ^ (-100 : ℤ) ≤ 2 ^ (-20 : ℤ) * 2 + 2 ^ (-100 : ℤ) := by gcongr
        _ ≤ 4 * ε := by unfold ε; norm_num
    show |v - (((varlist hybrid).filter P).map (fun k => w k * μ k)).sum / t| ≤ _
    calc _ = |(v - S / T) + (S / T - (((varlist hybrid).filter P).map (fun k => w k * μ k)).sum / t)| := by ring_nf
      _ ≤ _ := abs_add_le _ _
      _ ≤ _ := by linarith

/-- the real number a float stands for -/
noncomputable def toR (a : α) : ℝ := match val a with | .fin r => r | _ => 0

theorem toR_eq {a : α} {r : ℝ} (h : val a = .fin r) : toR a = r := by unfold toR; rw [h]

/-- the exact membership of species `c` in variable `k` at a gate, with the parameters of the shipped file -/
noncomputable def exactMember (band : String) (s : Season) (c : Nat) (g : Key → α) (k : Key) : ℝ :=
  match (csv band s k).bind (fun rows => rows[c]?) with
  | some r => exactBeta (toR (rawVal r.m : α)) (toR (rawVal r.a : α)) (toR (rawVal r.b : α)) (toR (g k))
  | none => 0

/-- the variables the weighted mean is taken over: differential reflectivity, specific differential phase, correlation and linear depolarization
ratio, and for the linear method also temperature and reflectivity -/
def meanVars (hybrid : Bool) : List Key := if hybrid then [.DR, .KD, .RH, .LD] else [.DR, .KD, .RH, .LD, .T, .DZ]

/-- the weighted mean of the values `e` over the supplied variables the method averages, exact -/
noncomputable def exactMean (hybrid : Bool) (P : Key → Bool) (w e : Key → ℝ) : ℝ :=
  (((meanVars hybrid).filter P).map (fun k => w k * e k)).sum / (((meanVars hybrid).filter P).map w).sum

/-- the total weight of the supplied variables the method averages -/
noncomputable def totalWeight (hybrid : Bool) (P : Key → Bool) (w : Key → ℝ) : ℝ := (((meanVars hybrid).filter P).map w).sum

theorem meanV_eq : meanV = exactMean := by funext hybrid P w e; cases hybrid <;> rfl
theorem totalV_eq : totalV = totalWeight := by funext hybrid P w; cases hybrid <;> rfl

/-- the score of the classifier from the membership values `e`, exact: the weighted mean, or (hybrid method) the weighted mean over the polarimetric variables
times the membership of the reflectivity, times the membership of the temperature if it is used -/
noncomputable def exactScore (hybrid : Bool) (P : Key → Bool) (useTemp : Bool) (w e : Key → ℝ) : ℝ :=
  if hybrid then (if pol.any P then exactMean true P w e else 1) * (if P .T && useTemp then e .T else 1) * e .DZ
  else exactMean false P w e

theorem polFlag_eq (P : Key → Bool) (u : Bool) (W : Key → Nat → α) (sets : Sets α) (t : Bool) : polFlag (cfg P u W sets true t) = pol.any P := by
  unfold polFlag
  simp only [cfg, pol, List.any_cons, List.any_nil]
  cases P .DR <;> cases P .KD <;> cases P .RH <;> cases P .LD <;> simp

/-- products of numbers from 0 to 1 -/
theorem prod_close {a b : α} {X Y x y A B : ℝ} (ha : val a = .fin X) (hb : val b = .fin Y) (hX : |X| ≤ 1) (hY : |Y| ≤ 1) (hx : |x| ≤ 1)
    (h1 : |X - x| ≤ A) (h2 : |Y - y| ≤ B) : ∃ v : ℝ, val (a * b) = .fin v ∧ |v - x * y| ≤ A + B + 2 * ε := by
  have hXY : |X * Y| ≤ 1 := by rw [abs_mul]; exact mul_le_one₀ hX (abs_nonneg _) hY
  obtain ⟨v, hv, hv1⟩ := Ieee.rnd_near (α := α) (x := X * Y) (hXY.trans (by norm_num))
  refine ⟨v, by rw [Ieee.vmul, ha, hb, XR.fmul]; exact hv, ?_⟩
  have h3 : |v - X * Y| ≤ 2 * ε := by
    refine hv1.trans ?_
    calc (2 : ℝ) ^ (-20 : ℤ) * |X * Y| + 2 ^ (-100 : ℤ) ≤ 2 ^ (-20 : ℤ) * 1 + 2 ^ (-100 : ℤ) := by gcongr
      _ ≤ 2 * ε := by unfold ε; norm_num
  have h4 : |X * Y - x * y| ≤ A + B := by
    have e : X * Y - x * y = (X - x) * Y + x * (Y - y) := by ring
    rw [e]
    refine (abs_add_le _ _).trans ?_
    rw [abs_mul, abs_mul]
    have k1 : |X - x| * |Y| ≤ |X - x| * 1 := by gcongr
    have k2 : |x| * |Y - y| ≤ 1 * |Y - y| := by gcongr
    linarith
  calc |v - x * y| = |(v - X * Y) + (X * Y - x * y)| := by ring_nf
    _ ≤ _ := abs_add_le _ _
    _ ≤ _ := by linarith

/-- a membership of the shipped tables is close to the exact one -/
theorem member_close [IeeeFloatPow α'] {band : String} {s : Season} {P : Key → Bool} {c : Nat} (hg : GoodAt band s P c) {u : Bool} {f : α'}
    (hf : val f = .fin 1) {g : Key → α'} (hx : ∀ k, P k = true → ∃ y : ℝ, val (g k) = .fin y ∧ |y| ≤ 2 ^ (20 : ℤ))
    (k : Key) (hk : P k = true) (hT : k = .T → effTemp P u = true) :
    ∃ m : ℝ, val (gMember (setsOf s (effTemp P u) f band) c k g) = .fin m ∧ 0 ≤ m ∧ m ≤ 1 ∧ |m - exactMember band s c g k| ≤ 1 / 1000 := by
  obtain ⟨y0, h0, h1⟩ := hx k hk
  obtain ⟨m, hm, m0, m1⟩ := (member_unit hg hf (by norm_num) (by norm_num) (fun k hk => ⟨_, (hx k hk).choose_spec.1⟩) k hk hT (u := u)).real
  refine ⟨m, hm, m0, m1, ?_⟩
  obtain ⟨rows, hr, hc, hgood⟩ := hg k hk
  have one : val (if k = .T then f else (1.0 : α')) = .fin 1 := by
    split_ifs
    · exact hf
    · exact v1
  have e : gMember (setsOf s (effTemp P u) f band) c k g = beta ⟨rawVal rows[c].m / (if k = .T then f else 1.0),
      rawVal rows[c].a / (if k = .T then f else 1.0), rawVal rows[c].b / (if k = .T then f else 1.0)⟩ (g k) := by
    unfold gMember
    rw [setsOf_eq s _ f band k hT, hr]
    simp [getBetaSet, hc]
  obtain ⟨μ, w, β, hU⟩ := C163_shipped (α := α') band s k rows hr rows[c] (List.getElem_mem _) hgood
  have hU0 := hU (g k) y0 h0 h1
  have dv : ∀ a : α', val (a / (if k = .T then f else (1.0 : α'))) = val (a / 1.0) := by
    intro a
    rw [Ieee.vdiv _ _ (by rw [one]; simp), Ieee.vdiv _ _ (by rw [v1]; simp), one, v1]
  have hU' : Usual (g k) (rawVal rows[c].m / (if k = .T then f else 1.0)) (rawVal rows[c].a / (if k = .T then f else 1.0))
      (rawVal rows[c].b / (if k = .T then f else 1.0)) y0 μ w β :=
    ⟨hU0.hx, (dv _).trans hU0.hm, (dv _).trans hU0.ha, (dv _).trans hU0.hb, hU0.bx, hU0.bm, hU0.wlo, hU0.whi, hU0.blo, hU0.bhi⟩
  obtain ⟨v, hv, hv1⟩ := beta_close hU'
  rw [e, hv] at hm
  cases hm
  have small := table_small band s k rows hr rows[c] (List.getElem_mem _)
  have back : ∀ (n : ℤ) (y : ℝ), |n| ≤ 1000000 → val (rawVal (some n) / 1.0 : α') = .fin y → toR (rawVal (some n) : α') = y := by
    intro n y hn hy
    obtain ⟨x, hx, -⟩ := rawVal_float (α := α') n hn
    rw [div_one hx] at hy
    cases hy
    exact toR_eq hx
  obtain ⟨M, A, B, hR, -, -⟩ := hgood
  have q1 := hU0.hm
  have q2 := hU0.ha
  have q3 := hU0.hb
  rw [hR] at q1 q2 q3 small
  unfold exactMember
  rw [hr]
  simp only [Option.bind_some, List.getElem?_eq_getElem hc]
  rw [hR]
  simp only [back M μ (small M (by simp)) q1, back A w (small A (by simp)) q2, back B β (small B (by simp)) q3, toR_eq h0]
  exact hv1

theorem exactBeta_unit (m a b x : ℝ) : 0 ≤ exactBeta m a b x ∧ exactBeta m a b x ≤ 1 := by
  unfold exactBeta
  have h : 0 ≤ (((x - m) / a) ^ 2) ^ b := Real.rpow_nonneg (sq_nonneg _) _
  exact ⟨by positivity, by rw [div_le_one (by linarith)]; linarith⟩

theorem exactMember_unit (band : String) (s : Season) (c : Nat) (g : Key → α) (k : Key) :
    0 ≤ exactMember band s c g k ∧ exactMember band s c g k ≤ 1 := by
  unfold exactMember
  split
  · exact exactBeta_unit _ _ _ _
  · simp

theorem pos_of_sum (w : Key → ℝ) : ∀ l : List Key, 0 < (l.map w).sum → ∃ k ∈ l, 0 < w k
  | [], h => by simp at h
  | k :: l, h => by
    by_cases hk : 0 < w k
    · exact ⟨k, by simp, hk⟩
    · simp only [List.map_cons, List.sum_cons] at h
      obtain ⟨j, hj, hj'⟩ := pos_of_sum w l (by linarith)
      exact ⟨j, by simp [hj], hj'⟩

theorem unit_mk {r : ℝ} (h0 : 0 ≤ r) (h1 : r ≤ 1) : Unit01 (.fin r) := ⟨by rw [Ieee.le_fin]; exact h0, by rw [Ieee.le_fin]; exact h1⟩

/-- the exact weighted mean of numbers from 0 to 1 -/
theorem meanV_unit {hybrid : Bool} {P : Key → Bool} {w e : Key → ℝ} (hw0 : ∀ k, 0 ≤ w k) (he : ∀ k, 0 ≤ e k ∧ e k ≤ 1)
    (ht : 0 < totalV hybrid P w) : 0 ≤ meanV hybrid P w e ∧ meanV hybrid P w e ≤ 1 := by
  have h0 : 0 ≤ (((varlist hybrid).filter P).map (fun k => w k * e k)).sum := List.sum_nonneg (by
    intro y hy
    obtain ⟨j, _, rfl⟩ := List.mem_map.mp hy
    exact mul_nonneg (hw0 j) (he j).1)
  have h1 : (((varlist hybrid).filter P).map (fun k => w k * e k)).sum ≤ totalV hybrid P w :=
    sum_le_of _ _ _ (fun k _ => mul_le_of_le_one_right (hw0 k) (he k).2)
  exact ⟨div_nonneg h0 ht.le, (div_le_one ht).mpr h1⟩

/-- the weighted mean, membership values off by at most `δ` -/
theorem gPol_near {P : Key → Bool} {u hybrid : Bool} {W : Key → Nat → α} {sets : Sets α} {c : Nat} {g : Key → α} {w e : Key → ℝ} {δ : ℝ}
    (hw : ∀ k, val (W k c) = .fin (w k)) (hw0 : ∀ k, 0 ≤ w k) (hw1 : ∀ k, w k ≤ 2 ^ 20)
    (hm : ∀ k, P k = true → (k = .T → effTemp P u = true) → ∃ m : ℝ, val (gMember sets c k g) = .fin m ∧ 0 ≤ m ∧ m ≤ 1 ∧ |m - e k| ≤ δ)
    (hlin : hybrid = false → P .T = true → effTemp P u = true)
    (hpos : 2 ^ (-20 : ℤ) ≤ totalV hybrid P w) :
    ∃ r : ℝ, val (gPol (cfg P u W sets hybrid false) c g) = .fin r ∧ |r| ≤ 1 ∧ 0 ≤ r ∧ r ≤ 1 ∧ |r - meanV hybrid P w e| ≤ δ + 110 * ε := by
  classical
  have t0 : 0 < totalV hybrid P w := _root_.lt_of_lt_of_le (by positivity) hpos
  let μ : Key → ℝ := fun k => toR (gMember sets c k g)
  have hμ : ∀ k, P k = true → (k = .T → effTemp P u = true) → val (gMember sets c k g) = .fin (μ k) ∧ 0 ≤ μ k ∧ μ k ≤ 1 ∧ |μ k - e k| ≤ δ := by
    intro k h1 h2
    obtain ⟨m, m1, m2, m3, m4⟩ := hm k h1 h2
    have : μ k = m := toR_eq m1
    rw [this]
    exact ⟨m1, m2, m3, m4⟩
  have hvar : ∀ k ∈ (varlist hybrid).filter P, P k = true ∧ (k = .T → effTemp P u = true) := by
    intro k hk
    obtain ⟨hk, hp⟩ := List.mem_filter.mp hk
    refine ⟨hp, fun hT => ?_⟩
    subst hT
    cases hybrid with
    | true => exact absurd rfl (mem_varlist_hybrid hk).1
    | false => exact hlin rfl hp
  obtain ⟨r, hr, hr1⟩ := gPol_close hw hw0 hw1 (fun k h1 h2 => ⟨(hμ k h1 h2).1, (hμ k h1 h2).2.1, (hμ k h1 h2).2.2.1⟩) hlin hpos
  obtain ⟨k, hk, hk'⟩ := pos_of_sum w _ t0
  have hun : Unit01 (val (gPol (cfg P u W sets hybrid false) c g)) := by
    refine gPol_unit hw hw0 hw1 (fun k h1 h2 => ?_) hlin ⟨k, (List.mem_filter.mp hk).1, (hvar k hk).1, (hvar k hk).2, hk'⟩
    obtain ⟨m1, m2, m3, -⟩ := hμ k h1 h2
    rw [m1]
    exact unit_mk m2 m3
  obtain ⟨r', e1, e2, e3⟩ := hun.real
  rw [hr] at e1
  cases e1
  refine ⟨r, hr, by rw [abs_of_nonneg e2]; exact e3, e2, e3, ?_⟩
  have h2 := mean_close w μ e δ ((varlist hybrid).filter P) (fun k _ => hw0 k) t0 (fun k hk => (hμ k (hvar k hk).1 (hvar k hk).2).2.2.2)
  have h3 : |meanV hybrid P w μ - meanV hybrid P w e| ≤ δ := h2
  calc |r - meanV hybrid P w e| = |(r - meanV hybrid P w μ) + (meanV hybrid P w μ - meanV hybrid P w e)| := by ring_nf
    _ ≤ _ := abs_add_le _ _
    _ ≤ _ := by linarith

/-- the score, membership values off by at most 0.001 -/
theorem gScore_close {P : Key → Bool} {u hybrid trap : Bool} {W : Key → Nat → α} {sets : Sets α} {c : Nat} {g : Key → α} {w e : Key → ℝ}
    (hdz : P .DZ = true) (htrap : hybrid = false → trap = false)
    (hw : ∀ k, val (W k c) = .fin (w k)) (hw0 : ∀ k, 0 ≤ w k) (hw1 : ∀ k, w k ≤ 2 ^ 20) (he : ∀ k, 0 ≤ e k ∧ e k ≤ 1)
    (hm : ∀ k, P k = true → (k = .T → effTemp P u = true) → ∃ m : ℝ, val (gMember sets c k g) = .fin m ∧ 0 ≤ m ∧ m ≤ 1 ∧ |m - e k| ≤ 1 / 1000)
    (hlin : hybrid = false → P .T = true → effTemp P u = true)
    (hpos : (hybrid = true → pol.any P = true) → 2 ^ (-20 : ℤ) ≤ totalWeight hybrid P w) :
    ∃ v : ℝ, val (gScore (cfg P u W sets hybrid trap) c g) = .fin v ∧ |v - exactScore hybrid P u w e| ≤ 1 / 250 := by
  rw [← totalV_eq] at hpos
  have εp := ε_pos
  have εs : ε ≤ 1 / 1000000 := by unfold ε; norm_num
  cases hybrid with
  | false =>
    rw [htrap rfl]
    obtain ⟨r, h1, -, -, -, h3⟩ := gPol_near hw hw0 hw1 hm hlin (hpos (by simp))
    refine ⟨r, h1, ?_⟩
    unfold exactScore
    rw [← meanV_eq]
    simp only [Bool.false_eq_true, if_false]
    linarith
  | true =>
    rw [gScore_hybrid_trap P u W sets trap false c g]
    have e0 : gScore (cfg P u W sets true false) c g =
      if polFlag (cfg P u W sets true false) then
        if effTemp P u then gPol (cfg P u W sets true false) c g * gMember sets c .T g * gMember sets c .DZ g
        else gPol (cfg P u W sets true false) c g * gMember sets c .DZ g
      else if effTemp P u then gMember sets c .T g * gMember sets c .DZ g
      else gMember sets c .DZ g := rfl
    rw [e0, polFlag_eq]
    obtain ⟨d, d1, d2, d3, d4⟩ := hm .DZ hdz (by simp)
    have dabs : |d| ≤ 1 := by rw [abs_of_nonneg d2]; exact d3
    have ht : effTemp P u = true → ∃ m : ℝ, val (gMember sets c .T g) = .fin m ∧ |m| ≤ 1 ∧ |m - e .T| ≤ 1 / 1000 ∧ 0 ≤ m ∧ m ≤ 1 := by
      intro h
      have : P .T = true := by simp [effTemp] at h; exact h.1
      obtain ⟨m, m1, m2, m3, m4⟩ := hm .T this (fun _ => h)
      exact ⟨m, m1, by rw [abs_of_nonneg m2]; exact m3, m4, m2, m3⟩
    have hp : pol.any P = true → ∃ r : ℝ, val (gPol (cfg P u W sets true false) c g) = .fin r ∧ |r| ≤ 1 ∧ |r - meanV true P w e| ≤ 1 / 1000 + 110 * ε ∧
        0 ≤ meanV true P w e ∧ meanV true P w e ≤ 1 ∧ 0 ≤ r ∧ r ≤ 1 := by
      intro h
      obtain ⟨r, h1, h2, h4, h5, h3⟩ := gPol_near hw hw0 hw1 hm hlin (hpos (fun _ => h))
      have hu := meanV_unit hw0 he (_root_.lt_of_lt_of_le (by positivity) (hpos (fun _ => h)))
      exact ⟨r, h1, h2, h3, hu.1, hu.2, h4, h5⟩
    have heT := he .T
    unfold exactScore
    rw [← meanV_eq]
    rw [if_pos rfl]
    have eu : (P .T && u) = effTemp P u := rfl
    rw [eu]
    split_ifs with h1 h2 h2
    · obtain ⟨r, r1, r2, r3, r4, r5, r6, r7⟩ := hp h1
      obtain ⟨m, m1, m2, m3, m4, m5⟩ := ht h2
      obtain ⟨q, q1, q2⟩ := prod_close r1 m1 r2 m2 (by rw [abs_of_nonneg r4]; exact r5) r3 m3
      have hq : |q| ≤ 1 := by
        have hu : Unit01 (val (gPol (cfg P u W sets true false) c g * gMember sets c .T g)) :=
          Unit01.mul (by rw [r1]; exact unit_mk r6 r7) (by rw [m1]; exact unit_mk m4 m5)
        obtain ⟨q', z1, z2, z3⟩ := hu.real
        rw [q1] at z1
        cases z1
        rw [abs_of_nonneg z2]; exact z3
      obtain ⟨v, v1, v2⟩ := prod_close q1 d1 hq dabs (x := meanV true P w e * e .T)
        (by rw [abs_of_nonneg (mul_nonneg r4 heT.1)]; exact mul_le_one₀ r5 heT.1 heT.2) q2 d4
      exact ⟨v, v1, v2.trans (by linarith)⟩
    · obtain ⟨r, r1, r2, r3, r4, r5, r6, r7⟩ := hp h1
      obtain ⟨v, v1, v2⟩ := prod_close r1 d1 r2 dabs (by rw [abs_of_nonneg r4]; exact r5) r3 d4
      exact ⟨v, v1, by rw [mul_one]; exact v2.trans (by linarith)⟩
    · obtain ⟨m, m1, m2, m3, m4, m5⟩ := ht h2
      obtain ⟨v, v1, v2⟩ := prod_close m1 d1 m2 dabs (x := e .T) (by rw [abs_of_nonneg heT.1]; exact heT.2) m3 d4
      exact ⟨v, v1, by rw [one_mul]; exact v2.trans (by linarith)⟩
    · exact ⟨d, d1, by rw [one_mul, one_mul]; exact d4.trans (by norm_num)⟩

/-- **C164.** With `return_scores=True` the scores of `csu_fhc_summer` are accurate to 0.004: whatever the precision and the rounding, for any
band, method, subset of variables and weights up to `2^20` (of total at least `2^-20`, if a weighted mean is taken), the score of every species at every gate whose
values are of size up to `2^20` (whatever the other gates hold) differs by at most 0.004 from the score computed exactly from the parameters and the inputs
(trapezoids off for `linear`, `temp_factor` 1). -/
theorem C164_scores [IeeeFloatPow α'] (A : SummerArgs α') (I : Inputs α') (P : Key → Bool) (gs : List (Key → α'))
    (hybrid : Bool) (hA : GoodCall A P hybrid) (hn : A.nTypes = 10) (hret : A.returnScores = true) (hf : val A.tempFactor = .fin 1)
    (w : Key → ℝ) (hw : ∀ k, val (A.weights k) = .fin (w k) ∧ 0 ≤ w k ∧ w k ≤ 2 ^ 20)
    (hpos : (hybrid = true → pol.any P = true) → 2 ^ (-20 : ℤ) ≤ totalWeight hybrid P w)
    (htrap : hybrid = false → A.useTrap = false)
    (h : IsGates I P gs) :
    ∃ shape rows, csuFhcSummer A I = .ok (some (.scores shape rows)) ∧ rows.length = 10 ∧
      ∀ c < 10, (rows.getD c []).length = gs.length ∧ ∀ i (hi : i < gs.length),
        (∀ k, P k = true → ∃ y : ℝ, val (gs[i] k) = .fin y ∧ |y| ≤ 2 ^ (20 : ℤ)) →
        ∃ v : ℝ, val ((rows.getD c []).getD i PyFloat.nan) = .fin v ∧
          |v - exactScore hybrid P A.useTemp w (exactMember A.band .summer c gs[i])| ≤ 1 / 250 := by
  obtain ⟨dz, _, h2⟩ := summer_gates hA hn (noZeroWidth_summerF hA.band ⟨1, hf, by norm_num, by norm_num⟩) h
  simp only [hret, if_true] at h2
  refine ⟨_, _, h2, by simp, ?_⟩
  intro c hc
  simp only [List.getD_eq_getElem?_getD, List.getElem?_map, List.getElem?_range hc, Option.map_some, Option.getD_some, List.length_map, true_and]
  intro i hi hx
  simp only [List.getElem?_eq_getElem hi, Option.map_some, Option.getD_some]
  have hlin : hybrid = false → P .T = true → A.useTemp = true := by
    intro e hT
    rcases hA.linT e hT with h | h
    · exact h
    · rw [htrap e] at h; cases h
  exact gScore_close hA.dz htrap (fun k => (hw k).1) (fun k => (hw k).2.1) (fun k => (hw k).2.2) (exactMember_unit _ _ _ _)
    (fun k hk hT => member_close (goodAt_summer hA.band P c hc) hf hx k hk hT)
    (fun e hT => by simp [effTemp, hT, hlin e hT]) hpos

/-- **C164.** The category returned without `return_scores` is right up to 0.008, at every gate of such values: no species has an exact score that exceeds the exact score of the
chosen one by more than that; in particular a species whose exact score exceeds all others by more than 0.008 is chosen, whatever the rounding. -/
theorem C164_category [IeeeFloatPow α'] (A : SummerArgs α') (I : Inputs α') (P : Key → Bool) (gs : List (Key → α'))
    (hybrid : Bool) (hA : GoodCall A P hybrid) (hn : A.nTypes = 10) (hret : A.returnScores = false) (hf : val A.tempFactor = .fin 1)
    (w : Key → ℝ) (hw : ∀ k, val (A.weights k) = .fin (w k) ∧ 0 ≤ w k ∧ w k ≤ 2 ^ 20)
    (hpos : (hybrid = true → pol.any P = true) → 2 ^ (-20 : ℤ) ≤ totalWeight hybrid P w)
    (htrap : hybrid = false → A.useTrap = false)
    (h : IsGates I P gs) :
    ∃ shape cats, csuFhcSummer A I = .ok (some (.hid shape cats)) ∧ cats.length = gs.length ∧
      ∀ i (hi : i < gs.length), (∀ k, P k = true → ∃ y : ℝ, val (gs[i] k) = .fin y ∧ |y| ≤ 2 ^ (20 : ℤ)) → 1 ≤ cats.getD i 0 ∧ cats.getD i 0 ≤ 10 ∧
        (∀ c < 10, exactScore hybrid P A.useTemp w (exactMember A.band .summer c gs[i]) ≤
          exactScore hybrid P A.useTemp w (exactMember A.band .summer (cats.getD i 0 - 1) gs[i]) + 1 / 125) ∧
        ∀ c < 10, (∀ j < 10, j ≠ c → exactScore hybrid P A.useTemp w (exactMember A.band .summer j gs[i]) + 1 / 125 <
          exactScore hybrid P A.useTemp w (exactMember A.band .summer c gs[i])) → cats.getD i 0 = c + 1 := by
  obtain ⟨dz, _, h2⟩ := summer_gates hA hn (noZeroWidth_summerF hA.band ⟨1, hf, by norm_num, by norm_num⟩) h
  simp only [hret, Bool.false_eq_true, if_false] at h2
  refine ⟨_, _, h2, by simp, ?_⟩
  intro i hi hx
  simp only [List.getD_eq_getElem?_getD, List.getElem?_map, List.getElem?_eq_getElem hi, Option.map_some, Option.getD_some]
  have hlin : hybrid = false → P .T = true → A.useTemp = true := by
    intro e hT
    rcases hA.linT e hT with h | h
    · exact h
    · rw [htrap e] at h; cases h
  have key : ∀ c : Nat, ∃ r : ℝ, c < 10 → val (gScore (cfg P A.useTemp (fun k _ => A.weights k)
      (setsOf .summer (effTemp P A.useTemp) A.tempFactor A.band) hybrid A.useTrap) c gs[i]) = .fin r ∧
      |r - exactScore hybrid P A.useTemp w (exactMember A.band .summer c gs[i])| ≤ 1 / 250 := by
    intro c
    by_cases hc : c < 10
    · obtain ⟨v, h1, h2⟩ := gScore_close hA.dz htrap (fun k => (hw k).1) (fun k => (hw k).2.1) (fun k => (hw k).2.2) (exactMember_unit _ _ _ _)
        (fun k hk hT => member_close (goodAt_summer hA.band P c hc) hf hx k hk hT)
        (fun e hT => by simp [effTemp, hT, hlin e hT]) hpos (W := fun k _ => A.weights k) (u := A.useTemp)
      exact ⟨v, fun _ => ⟨h1, h2⟩⟩
    · exact ⟨0, fun h => absurd h hc⟩
  choose r hr using key
  have e : argmaxPlus1 ((List.range 10).map (fun c => gScore (cfg P A.useTemp (fun k _ => A.weights k)
      (setsOf .summer (effTemp P A.useTemp) A.tempFactor A.band) hybrid A.useTrap) c gs[i])) = argmaxPlus1 (((List.range 10).map r).map XR.fin) := by
    rw [argmaxPlus1_val, List.map_map, List.map_map]
    congr 1
    refine List.map_congr_left (fun c hc => ?_)
    exact (hr c (List.mem_range.mp hc)).1
  rw [e]
  obtain ⟨k1, k2, k3, -⟩ := argmaxPlus1_fin ((List.range 10).map r) (by simp)
  set k := argmaxPlus1 (((List.range 10).map r).map XR.fin)
  rw [List.length_map, List.length_range] at k2
  have best : ∀ c < 10, r c ≤ r (k - 1) := by
    intro c hc
    have hk : k - 1 < 10 := by omega
    have := k3 c (by simpa using hc)
    simpa [List.getD_eq_getElem?_getD, List.getElem?_range hc, List.getElem?_range hk] using this
  have close : ∀ c < 10, exactScore hybrid P A.useTemp w (exactMember A.band .summer c gs[i]) ≤
      exactScore hybrid P A.useTemp w (exactMember A.band .summer (k - 1) gs[i]) + 1 / 125 := by
    intro c hc
    have h1 := (abs_le.mp (hr c hc).2).1
    have h2 := (abs_le.mp (hr (k - 1) (by omega)).2).2
    have h3 := best c hc
    linarith
  refine ⟨k1, k2, close, ?_⟩
  intro c hc hbest
  by_contra hne
  have h1 := hbest (k - 1) (by omega) (by omega)
  have h2 := close c hc
  linarith

/-- binary64, C band, the default call: two gates, one of them NaN -/
example : ∃ shape cats, csuFhcSummer ({ band := "C" } : SummerArgs Binary64) (inputsOf (fun _ => true) [fun _ => 30, fun _ => PyFloat.nan]) =
      .ok (some (.hid shape cats)) ∧ cats.length = 2 ∧ 1 ≤ cats.getD 0 0 ∧ cats.getD 0 0 ≤ 10 := by
  choose w h1 h2 h3 using (defaultWeights_moderate : ∀ k, Moderate (defaultWeights k : Binary64))
  obtain ⟨shape, cats, e1, e2, e3⟩ := C164_category ({ band := "C" } : SummerArgs Binary64) (inputsOf (fun _ => true) [fun _ => 30, fun _ => PyFloat.nan])
    (fun _ => true) [fun _ => 30, fun _ => PyFloat.nan] true
    ⟨by simp [bands], by show methodOf "hybrid" = _; decide, rfl, by simp, by simp⟩ rfl rfl Ieee.vone w
    (fun k => ⟨h1 k, (_root_.lt_of_lt_of_le (by positivity) (h2 k)).le, by have := h3 k; norm_num at this ⊢; exact this⟩)
    (fun _ => (h2 .DR).trans (le_sum w _ (fun j _ => (_root_.lt_of_lt_of_le (by positivity) (h2 j)).le) .DR (by decide)))
    (by simp) (isGates_inputsOf _ _)
  have h0 := e3 0 (by simp) (fun _ _ => ⟨30, Ieee.voflit 30 (by norm_num), by norm_num⟩)
  exact ⟨shape, cats, e1, e2, h0.1, h0.2.1⟩

end Csu.Fhc
