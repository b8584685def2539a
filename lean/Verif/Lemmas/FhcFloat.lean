import Verif.Ieee
import Verif.Lemmas.FhcLink
/-! # Membership functions and scores in floating point -/
namespace Csu.Fhc
open Csu PyFloat Tables FhcSpec IeeeFloat
variable {α : Type} [IeeeFloat α]

/-- a value in the unit interval -/
def Unit01 (x : XR) : Prop := XR.le (.fin 0) x = true ∧ XR.le x (.fin 1) = true

theorem Unit01.real {x : XR} (h : Unit01 x) : ∃ r : ℝ, x = .fin r ∧ 0 ≤ r ∧ r ≤ 1 := Ieee.between h.1 h.2
theorem Unit01.rnd {x : XR} (h : Unit01 x) : Unit01 (rnd α x) :=
  ⟨Ieee.rnd_ge Ieee.simple_zero h.1, Ieee.rnd_le Ieee.simple_one h.2⟩
theorem Unit01.mul {a b : α} (ha : Unit01 (val a)) (hb : Unit01 (val b)) : Unit01 (val (a * b)) := by
  obtain ⟨x, hx, x0, x1⟩ := ha.real
  obtain ⟨y, hy, y0, y1⟩ := hb.real
  rw [Ieee.vmul, hx, hy, XR.fmul]
  exact Unit01.rnd ⟨by rw [Ieee.le_fin]; positivity, by rw [Ieee.le_fin]; exact mul_le_one₀ x1 y0 y1⟩

theorem v1 : val (1.0 : α) = .fin 1 := by
  rw [Ieee.vsci]
  have : (1.0 : ℝ) = 1 := by norm_num
  rw [this]; exact Ieee.rnd_simple Ieee.simple_one
theorem v2 : val (2.0 : α) = .fin 2 := by
  rw [Ieee.vsci]
  have : (2.0 : ℝ) = 2 := by norm_num
  rw [this]; exact Ieee.rnd_simple (Ieee.simple_nat 2 (by norm_num))

theorem pow_two_nonneg {e : XR} (h : e ≠ .nan) : XR.le (.fin 0) (XR.pow e (.fin 2)) = true := by
  have hf : (⌊(2 : ℝ)⌋ : ℤ) = 2 := by exact_mod_cast Int.floor_intCast (R := ℝ) 2
  cases e with
  | nan => exact absurd rfl h
  | ninf => simp [XR.pow, XR.le, hf]
  | pinf => simp [XR.pow, XR.le]
  | fin y =>
    have h2 : (2.0 : XR) = .fin 2 := by rw [XR.fsci]; norm_num
    have := fpow_two y
    rw [h2] at this
    have e : XR.pow (.fin y) (.fin 2) = .fin (y ^ 2) := this
    rw [e, Ieee.le_fin]; positivity

theorem pow_nonneg' {e : XR} {b : ℝ} (h : XR.le (.fin 0) e = true) (hb : 0 ≤ b) : XR.le (.fin 0) (XR.pow e (.fin b)) = true := by
  rcases Ieee.nonneg_cases h with rfl | ⟨y, rfl, hy⟩
  · simp only [XR.pow]
    split_ifs
    · simp [XR.le]
    · rfl
    · simp [XR.le]
  · show XR.le (.fin 0) (XR.powFin y b) = true
    unfold XR.powFin
    split_ifs with h1 h2 h3 h4 h5
    · rw [Ieee.le_fin]; positivity
    · simp [XR.le]
    · simp [XR.le]
    · rfl
    · exact absurd (lt_of_le_of_ne hy (Ne.symm h2)) h1
    · exact absurd (lt_of_le_of_ne hy (Ne.symm h2)) h1

/-- usable parameters of a membership function: finite centre, finite nonzero width, finite nonnegative slope -/
structure GoodRowF (r : Row α) : Prop where
  m : ∃ x : ℝ, val r.m = .fin x
  a : ∃ x : ℝ, val r.a = .fin x ∧ x ≠ 0
  b : ∃ x : ℝ, val r.b = .fin x ∧ 0 ≤ x

/-- the membership function in floating point, at a finite argument -/
theorem beta_unit {r : Row α} (hr : GoodRowF r) {x : α} {y : ℝ} (hx : val x = .fin y) : Unit01 (val (beta r x)) := by
  obtain ⟨m, hm⟩ := hr.m
  obtain ⟨a, ha, ha0⟩ := hr.a
  obtain ⟨b, hb, hb0⟩ := hr.b
  have hd : val (x - r.m) ≠ .nan := by
    rw [Ieee.vsub, hx, hm, XR.fsub]; exact Ieee.rnd_ne_nan (by simp)
  have hq : val ((x - r.m) / r.a) ≠ .nan := by
    rw [Ieee.vdiv _ _ (by rw [ha]; simpa using ha0), ha]
    apply Ieee.rnd_ne_nan
    revert hd
    cases val (x - r.m) with
    | nan => intro h; exact absurd rfl h
    | ninf => intro _; show XR.div _ _ ≠ _; simp only [XR.div]; split_ifs <;> simp
    | pinf => intro _; show XR.div _ _ ≠ _; simp only [XR.div]; split_ifs <;> simp
    | fin z => intro _; rw [XR.fdiv ha0]; simp
  have hp : XR.le (.fin 0) (val (((x - r.m) / r.a) ^ (2.0 : α))) = true := by
    have := val_pow ((x - r.m) / r.a) (2.0 : α) (.inr (by rw [v2]; simp))
    rw [v2] at this
    exact this.ge0 (pow_two_nonneg hq)
  have hp2 : XR.le (.fin 0) (val ((((x - r.m) / r.a) ^ (2.0 : α)) ^ r.b)) = true := by
    have := val_pow (((x - r.m) / r.a) ^ (2.0 : α)) r.b (.inr (by rw [hb]; simpa using hb0))
    rw [hb] at this
    exact this.ge0 (pow_nonneg' hp hb0)
  have hs : XR.le (.fin 1) (val ((1.0 : α) + (((x - r.m) / r.a) ^ (2.0 : α)) ^ r.b)) = true := by
    rw [Ieee.vadd, v1]
    apply Ieee.rnd_ge Ieee.simple_one
    rcases Ieee.nonneg_cases hp2 with h | ⟨z, h, hz⟩
    · rw [h]; rfl
    · rw [h, XR.fadd, Ieee.le_fin]; linarith
  unfold beta
  rcases Ieee.nonneg_cases hs with h | ⟨z, h, hz⟩
  · rw [Ieee.vdiv _ _ (by rw [h]; simp), h, v1]
    exact Unit01.rnd ⟨by show XR.le _ (XR.div _ _) = true; simp [XR.div], by show XR.le (XR.div _ _) _ = true; simp [XR.div]⟩
  · have hz0 : z ≠ 0 := by linarith
    rw [Ieee.vdiv _ _ (by rw [h]; simpa using hz0), h, v1, XR.fdiv hz0]
    refine Unit01.rnd ⟨by rw [Ieee.le_fin]; positivity, by rw [Ieee.le_fin, div_le_one (by linarith)]; exact hz⟩

/-! ## Parameters from the tables -/

/-- every entry of every table is at most a thousand in size (entries are thousandths) -/
theorem table_small (band : String) (s : Season) (k : Key) (rows : List RawRow) (h : csv band s k = some rows) (r : RawRow) (hr : r ∈ rows)
    (n : ℤ) (hn : r.m = some n ∨ r.a = some n ∨ r.b = some n) : |n| ≤ 1000000 := by
  have hb : band ∈ bands := (C19_bands band s k).mp (by rw [h]; rfl)
  have all : bands.all (fun b => [Season.summer, .winter, .ml].all (fun s => keys.all (fun k => ((csv b s k).getD []).all
      (fun r => [r.m, r.a, r.b].all (fun x => decide ((x.getD 0).natAbs ≤ 1000000)))))) = true := by decide
  have h1 := List.all_eq_true.mp all band hb
  have h2 := List.all_eq_true.mp h1 s (by cases s <;> simp)
  have h3 := List.all_eq_true.mp h2 k (mem_keys k)
  rw [h] at h3
  have h4 := List.all_eq_true.mp h3 r hr
  have h5 := List.all_eq_true.mp h4 (some n) (by rcases hn with e | e | e <;> simp [e])
  have : n.natAbs ≤ 1000000 := by simpa using h5
  rw [Int.abs_eq_natAbs]
  exact_mod_cast this

theorem zpow_neg_ten : (2 : ℝ) ^ (-10 : ℤ) = 1 / 1024 := by norm_num
theorem zpow_ten : (2 : ℝ) ^ (10 : ℤ) = 1024 := by norm_num

/-- a table entry as a float -/
theorem rawVal_float (n : ℤ) (hn : |n| ≤ 1000000) : ∃ x : ℝ, val (rawVal (some n) : α) = .fin x ∧ |x| ≤ 2 ^ (10 : ℤ) ∧
    (0 < n → 2 ^ (-10 : ℤ) ≤ x) := by
  have hq : (((n : ℚ) / 1000 : ℚ) : ℝ) = (n : ℝ) / 1000 := by push_cast; rfl
  have hv : val (rawVal (some n) : α) = rnd α (.fin ((n : ℝ) / 1000)) := by
    show val (PyFloat.lit ((n : ℚ) / 1000) : α) = _
    rw [Ieee.vlit, hq]
  have hn' := abs_le.mp hn
  have h1 : (-1000000 : ℝ) ≤ n := by exact_mod_cast hn'.1
  have h2 : (n : ℝ) ≤ 1000000 := by exact_mod_cast hn'.2
  obtain ⟨x, hx, b1, b2⟩ := Ieee.between (Ieee.rnd_ge (α := α) (Ieee.simple_two_zpow 10 (by norm_num)).neg
      (x := .fin ((n : ℝ) / 1000)) (by rw [Ieee.le_fin, zpow_ten]; linarith))
    (Ieee.rnd_le (α := α) (Ieee.simple_two_zpow 10 (by norm_num)) (by rw [Ieee.le_fin, zpow_ten]; linarith))
  refine ⟨x, hv.trans hx, abs_le.mpr ⟨b1, b2⟩, fun h0 => ?_⟩
  have h3 : (1 : ℝ) ≤ n := by exact_mod_cast h0
  have := Ieee.rnd_ge (α := α) (Ieee.simple_two_zpow (-10) (by norm_num)) (x := .fin ((n : ℝ) / 1000))
    (by rw [Ieee.le_fin, zpow_neg_ten]; linarith)
  rw [hx, Ieee.le_fin] at this
  exact this

/-- a table entry divided by a moderate positive factor -/
theorem scaled_float {x a : α} {y φ : ℝ} (hx : val x = .fin y) (ha : val a = .fin φ) (h1 : 2 ^ (-20 : ℤ) ≤ φ) (h2 : φ ≤ 2 ^ (20 : ℤ))
    (hy : |y| ≤ 2 ^ (10 : ℤ)) : ∃ z : ℝ, val (x / a) = .fin z ∧ (2 ^ (-10 : ℤ) ≤ y → 2 ^ (-30 : ℤ) ≤ z) := by
  have h0 : 0 < φ := lt_of_lt_of_le (by positivity) h1
  have hv : val (x / a) = rnd α (.fin (y / φ)) := by
    rw [Ieee.vdiv _ _ (by rw [ha]; simpa using h0.ne'), hx, ha, XR.fdiv h0.ne']
  have hb : |y / φ| ≤ 2 ^ (30 : ℤ) := by
    rw [abs_div, abs_of_pos h0, div_le_iff₀ h0]
    calc |y| ≤ 2 ^ (10 : ℤ) := hy
      _ = 2 ^ (30 : ℤ) * 2 ^ (-20 : ℤ) := by norm_num
      _ ≤ _ := mul_le_mul_of_nonneg_left h1 (by positivity)
  obtain ⟨z, hz, -, -⟩ := Ieee.between (Ieee.rnd_ge (α := α) (Ieee.simple_two_zpow 30 (by norm_num)).neg
      (x := .fin (y / φ)) (by rw [Ieee.le_fin]; exact (abs_le.mp hb).1))
    (Ieee.rnd_le (α := α) (Ieee.simple_two_zpow 30 (by norm_num)) (by rw [Ieee.le_fin]; exact (abs_le.mp hb).2))
  refine ⟨z, hv.trans hz, fun h => ?_⟩
  have hq : (2 : ℝ) ^ (-30 : ℤ) ≤ y / φ := by
    rw [le_div_iff₀ h0]
    calc (2 : ℝ) ^ (-30 : ℤ) * φ ≤ 2 ^ (-30 : ℤ) * 2 ^ (20 : ℤ) := mul_le_mul_of_nonneg_left h2 (by positivity)
      _ = 2 ^ (-10 : ℤ) := by norm_num
      _ ≤ y := h
  have := Ieee.rnd_ge (α := α) (Ieee.simple_two_zpow (-30) (by norm_num)) (x := .fin (y / φ)) (by rw [Ieee.le_fin]; exact hq)
  rw [hz, Ieee.le_fin] at this
  exact this

/-- a usable row of a table, divided by a moderate positive factor, has usable parameters -/
theorem goodRowF {band : String} {s : Season} {k : Key} {rows : List RawRow} (h : csv band s k = some rows) {r : RawRow} (hr : r ∈ rows)
    (hg : GoodRow r) {f : α} {φ : ℝ} (hf : val f = .fin φ) (h1 : 2 ^ (-20 : ℤ) ≤ φ) (h2 : φ ≤ 2 ^ (20 : ℤ)) :
    GoodRowF (⟨rawVal r.m / f, rawVal r.a / f, rawVal r.b / f⟩ : Row α) := by
  have small := table_small band s k rows h r hr
  obtain ⟨m, a, b, rfl, ha, hb⟩ := hg
  obtain ⟨x, hx, x1, -⟩ := rawVal_float (α := α) m (small m (by simp))
  obtain ⟨y, hy, y1, y2⟩ := rawVal_float (α := α) a (small a (by simp))
  obtain ⟨z, hz, z1, z2⟩ := rawVal_float (α := α) b (small b (by simp))
  obtain ⟨x', hx', -⟩ := scaled_float hx hf h1 h2 x1
  obtain ⟨y', hy', hy2⟩ := scaled_float hy hf h1 h2 y1
  obtain ⟨z', hz', hz2⟩ := scaled_float hz hf h1 h2 z1
  have p : (0 : ℝ) < 2 ^ (-30 : ℤ) := by positivity
  exact ⟨⟨x', hx'⟩, ⟨y', hy', (lt_of_lt_of_le p (hy2 (y2 ha))).ne'⟩, ⟨z', hz', (lt_of_lt_of_le p (hz2 (z2 hb))).le⟩⟩

/-! ## Weighted sums -/

theorem xadd_mono {a b t u : XR} (ha : XR.le (.fin 0) a = true) (hab : XR.le a b = true)
    (ht : XR.le (.fin 0) t = true) (htu : XR.le t u = true) : XR.le (.fin 0) (a + t) = true ∧ XR.le (a + t) (b + u) = true := by
  show XR.le (.fin 0) (XR.add a t) = true ∧ XR.le (XR.add a t) (XR.add b u) = true
  cases a <;> cases b <;> cases t <;> cases u <;> simp_all [XR.le, XR.add]
  all_goals first | linarith | (constructor <;> linarith)

theorem add_mono {a b t u : α} (ha : XR.le (.fin 0) (val a) = true) (hab : XR.le (val a) (val b) = true)
    (ht : XR.le (.fin 0) (val t) = true) (htu : XR.le (val t) (val u) = true) :
    XR.le (.fin 0) (val (a + t)) = true ∧ XR.le (val (a + t)) (val (b + u)) = true := by
  rw [Ieee.vadd, Ieee.vadd]
  have := xadd_mono ha hab ht htu
  exact ⟨Ieee.rnd_ge Ieee.simple_zero this.1, rnd_mono _ _ this.2⟩

theorem add_zero_val {a b : α} (hb : val b = .fin 0) : val (a + b) = val a := by
  rw [Ieee.vadd, hb]
  have : val a + XR.fin 0 = val a := by
    cases val a with
    | fin x => rw [XR.fadd, add_zero]
    | _ => rfl
  rw [this, rnd_val]

/-- summing fewer and smaller terms gives no more -/
theorem foldl_le {ι : Type} (ks : List ι) (P : ι → Bool) (t u : ι → α)
    (h : ∀ k ∈ ks, P k = true → XR.le (.fin 0) (val (t k)) = true ∧ XR.le (val (t k)) (val (u k)) = true)
    (h0 : ∀ k ∈ ks, P k = false → val (u k) = .fin 0) (a b : α) (ha : XR.le (.fin 0) (val a) = true) (hab : XR.le (val a) (val b) = true) :
    XR.le (.fin 0) (val (((ks.filter P).map t).foldl (· + ·) a)) = true ∧
    XR.le (val (((ks.filter P).map t).foldl (· + ·) a)) (val ((ks.map u).foldl (· + ·) b)) = true := by
  induction ks generalizing a b with
  | nil => exact ⟨ha, hab⟩
  | cons k ks ih =>
    have ih := ih (fun k hk => h k (by simp [hk])) (fun k hk => h0 k (by simp [hk]))
    rw [List.map_cons, List.foldl_cons]
    by_cases hp : P k = true
    · rw [List.filter_cons_of_pos hp, List.map_cons, List.foldl_cons]
      obtain ⟨h1, h2⟩ := h k (by simp) hp
      obtain ⟨h3, h4⟩ := add_mono ha hab h1 h2
      exact ih _ _ h3 h4
    · rw [List.filter_cons_of_neg hp]
      refine ih _ _ ha ?_
      rw [add_zero_val (h0 k (by simp) (by simpa using hp))]
      exact hab

/-- a sum of a few bounded nonnegative terms -/
theorem foldl_bound {ι : Type} (ks : List ι) (u : ι → α)
    (h : ∀ k ∈ ks, XR.le (.fin 0) (val (u k)) = true ∧ XR.le (val (u k)) (.fin (2 ^ 20)) = true) (n : ℕ) (hn : n + ks.length ≤ 16)
    (a : α) (ha : XR.le (.fin 0) (val a) = true) (ha' : XR.le (val a) (.fin (n * 2 ^ 20)) = true) :
    XR.le (val a) (val ((ks.map u).foldl (· + ·) a)) = true ∧
    XR.le (val ((ks.map u).foldl (· + ·) a)) (.fin (16 * 2 ^ 20)) = true ∧
    ∀ k ∈ ks, XR.le (val (u k)) (val ((ks.map u).foldl (· + ·) a)) = true := by
  induction ks generalizing a n with
  | nil =>
    refine ⟨Ieee.le_refl (Ieee.ne_nan_of_le ha).2, Ieee.le_trans ha' ?_, by simp⟩
    rw [Ieee.le_fin]
    have : (n : ℝ) ≤ 16 := by exact_mod_cast (by simpa using hn)
    show (n : ℝ) * 2 ^ 20 ≤ 16 * 2 ^ 20
    linarith
  | cons k ks ih =>
    obtain ⟨h1, h2⟩ := h k (by simp)
    obtain ⟨x, hx, x0, x1⟩ := Ieee.between ha ha'
    obtain ⟨y, hy, y0, y1⟩ := Ieee.between h1 h2
    have hv : val (a + u k) = rnd α (.fin (x + y)) := by rw [Ieee.vadd, hx, hy, XR.fadd]
    have hle : XR.le (val (a + u k)) (.fin (((n + 1 : ℕ) : ℝ) * 2 ^ 20)) = true := by
      rw [hv]
      apply Ieee.rnd_le
      · refine ⟨(n + 1 : ℕ), 20, ?_, by norm_num, by push_cast; norm_num⟩
        have : n + 1 ≤ 16 := by simp only [List.length_cons] at hn; omega
        rw [abs_of_nonneg (by positivity)]
        have : ((n + 1 : ℕ) : ℤ) ≤ 16 := by exact_mod_cast this
        linarith [show (16 : ℤ) ≤ 2 ^ 24 by norm_num]
      · rw [Ieee.le_fin]; push_cast; linarith
    have hge : XR.le (val a) (val (a + u k)) = true := by
      rw [hv]
      exact Ieee.rnd_ge_val (by rw [hx, Ieee.le_fin]; linarith)
    have hgu : XR.le (val (u k)) (val (a + u k)) = true := by
      rw [hv]
      exact Ieee.rnd_ge_val (by rw [hy, Ieee.le_fin]; linarith)
    obtain ⟨i1, i2, i3⟩ := ih (fun k hk => h k (by simp [hk])) (n + 1) (by simp only [List.length_cons] at hn; omega) (a + u k)
      (Ieee.le_trans ha hge) hle
    rw [List.map_cons, List.foldl_cons]
    refine ⟨Ieee.le_trans hge i1, i2, ?_⟩
    intro j hj
    rcases List.mem_cons.mp hj with rfl | hj
    · exact Ieee.le_trans hgu i1
    · exact i3 j hj

/-! ## Scores -/

theorem weight_one {w : α} {x : ℝ} (h : val w = .fin x) : val (PyFloat.ofNat 1 * w) = .fin x := by
  have h1 : val (PyFloat.ofNat 1 : α) = .fin 1 := by
    rw [Ieee.vnat, Nat.cast_one]; exact Ieee.rnd_simple Ieee.simple_one
  rw [Ieee.vmul, h1, h, XR.fmul, one_mul, ← h, rnd_val]

theorem weight_zero {w : α} {x : ℝ} (h : val w = .fin x) : val (PyFloat.ofNat 0 * w) = .fin 0 := by
  have h1 : val (PyFloat.ofNat 0 : α) = .fin 0 := by
    rw [Ieee.vnat, Nat.cast_zero]; exact Ieee.rnd_simple Ieee.simple_zero
  rw [Ieee.vmul, h1, h, XR.fmul, zero_mul]; exact Ieee.rnd_simple Ieee.simple_zero

theorem varlist_length (b : Bool) : (varlist b).length ≤ 6 := by cases b <;> decide

/-- the weighted mean in floating point -/
theorem gPol_unit {P : Key → Bool} {u hybrid : Bool} {W : Key → Nat → α} {sets : Sets α} {c : Nat} {g : Key → α} {w : Key → ℝ}
    (hw : ∀ k, val (W k c) = .fin (w k)) (hw0 : ∀ k, 0 ≤ w k) (hw1 : ∀ k, w k ≤ 2 ^ 20)
    (hm : ∀ k, P k = true → (k = .T → effTemp P u = true) → Unit01 (val (gMember sets c k g)))
    (hlin : hybrid = false → P .T = true → effTemp P u = true)
    (hpos : ∃ k ∈ varlist hybrid, P k = true ∧ (k = .T → effTemp P u = true) ∧ 0 < w k) :
    Unit01 (val (gPol (cfg P u W sets hybrid false) c g)) := by
  have hvar : ∀ k ∈ varlist hybrid, P k = true → (k = .T → effTemp P u = true) := by
    intro k hk hp hT
    subst hT
    cases hybrid with
    | true => exact absurd rfl (mem_varlist_hybrid hk).1
    | false => exact hlin rfl hp
  have v1 : ∀ k, P k = true → (k = .T → effTemp P u = true) → (cfg P u W sets hybrid false).vars k = 1 := by
    intro k hp hT
    show (if _ then 1 else 0) = 1
    rw [if_pos]
    by_cases hk : k = .T
    · simp [hp, hT hk]
    · simp [hp, hk]
  have v0 : ∀ k, P k = false → (cfg P u W sets hybrid false).vars k = 0 := by
    intro k hp
    show (if _ then 1 else 0) = 0
    rw [if_neg]; simp [hp]
  let U : Key → α := fun k => PyFloat.ofNat ((cfg P u W sets hybrid false).vars k) * W k c
  have hU1 : ∀ k ∈ varlist hybrid, P k = true → val (U k) = .fin (w k) := by
    intro k hk hp
    show val (PyFloat.ofNat _ * _) = _
    rw [v1 k hp (hvar k hk hp)]; exact weight_one (hw k)
  have hU0 : ∀ k, P k = false → val (U k) = .fin 0 := by
    intro k hp
    show val (PyFloat.ofNat _ * _) = _
    rw [v0 k hp]; exact weight_zero (hw k)
  have hUb : ∀ k ∈ varlist hybrid, XR.le (.fin 0) (val (U k)) = true ∧ XR.le (val (U k)) (.fin (2 ^ 20)) = true := by
    intro k hk
    cases hp : P k with
    | true => rw [hU1 k hk hp, Ieee.le_fin, Ieee.le_fin]; exact ⟨hw0 k, hw1 k⟩
    | false => rw [hU0 k hp, Ieee.le_fin, Ieee.le_fin]; exact ⟨_root_.le_refl _, by positivity⟩
  have hused : usedKeys (cfg P u W sets hybrid false) = (varlist hybrid).filter P := by
    unfold usedKeys
    show (varlist hybrid).filter _ = _
    congr 1
    funext k
    show (if P k then some [] else none : Option (List α)).isSome = P k
    cases P k <;> rfl
  have hT : ∀ k ∈ varlist hybrid, P k = true →
      XR.le (.fin 0) (val (gTerm (cfg P u W sets hybrid false) c g k)) = true ∧
      XR.le (val (gTerm (cfg P u W sets hybrid false) c g k)) (val (U k)) = true := by
    intro k hk hp
    have e : gTerm (cfg P u W sets hybrid false) c g k = U k * gMember sets c k g := by
      unfold gTerm
      rw [if_neg (by simp [cfg])]
      rfl
    obtain ⟨μ, hμ, m0, m1⟩ := (hm k hp (hvar k hk hp)).real
    rw [e, Ieee.vmul, hμ]
    have hx := hU1 k hk hp
    constructor
    · rw [hx, XR.fmul]
      exact Ieee.rnd_ge Ieee.simple_zero (by rw [Ieee.le_fin]; exact mul_nonneg (hw0 k) m0)
    · apply Ieee.rnd_le_val
      rw [hx, XR.fmul, Ieee.le_fin]
      exact mul_le_of_le_one_right (hw0 k) m1
  have z0 : XR.le (.fin 0) (val (0 : α)) = true := by rw [Ieee.vzero, Ieee.le_fin]
  obtain ⟨s1, s2⟩ := foldl_le (varlist hybrid) P (gTerm (cfg P u W sets hybrid false) c g) U hT (fun k _ => hU0 k) 0 0 z0
    (by rw [Ieee.vzero, Ieee.le_fin])
  obtain ⟨-, b2, b3⟩ := foldl_bound (varlist hybrid) U hUb 0 (by have := varlist_length hybrid; omega) 0 z0
    (by rw [Ieee.vzero, Ieee.le_fin]; simp)
  obtain ⟨k, hk, hp, -, hwk⟩ := hpos
  have b4 := b3 k hk
  rw [hU1 k hk hp] at b4
  obtain ⟨T, hT', t0, -⟩ := Ieee.between b4 b2
  obtain ⟨S, hS', q0, q1⟩ := Ieee.between s1 (hT' ▸ s2)
  have hTpos : 0 < T := lt_of_lt_of_le hwk t0
  have hw' : val (weightSum (cfg P u W sets hybrid false) c) = .fin T := hT'
  unfold gPol
  rw [hused, Ieee.vdiv _ _ (by rw [hw']; simpa using hTpos.ne'), hw']
  have : val (npSum (((varlist hybrid).filter P).map (gTerm (cfg P u W sets hybrid false) c g))) = .fin S := hS'
  rw [this, XR.fdiv hTpos.ne']
  exact Unit01.rnd ⟨by rw [Ieee.le_fin]; positivity, by rw [Ieee.le_fin, div_le_one hTpos]; exact q1⟩

/-- the score in floating point -/
theorem gScore_unit {P : Key → Bool} {u hybrid trap : Bool} {W : Key → Nat → α} {sets : Sets α} {c : Nat} {g : Key → α} {w : Key → ℝ}
    (hdz : P .DZ = true) (htrap : hybrid = false → trap = false)
    (hw : ∀ k, val (W k c) = .fin (w k)) (hw0 : ∀ k, 0 ≤ w k) (hw1 : ∀ k, w k ≤ 2 ^ 20)
    (hm : ∀ k, P k = true → (k = .T → effTemp P u = true) → Unit01 (val (gMember sets c k g)))
    (hlin : hybrid = false → P .T = true → effTemp P u = true)
    (hhyb : hybrid = true → (∃ k ∈ pol, P k = true) → ∃ k ∈ pol, P k = true ∧ 0 < w k)
    (hlinw : hybrid = false → ∃ k, P k = true ∧ (k = .T → effTemp P u = true) ∧ 0 < w k) :
    Unit01 (val (gScore (cfg P u W sets hybrid trap) c g)) := by
  have md := hm .DZ hdz (by simp)
  have mt : effTemp P u = true → Unit01 (val (gMember sets c .T g)) := by
    intro h
    have : P .T = true := by simp [effTemp] at h; exact h.1
    exact hm .T this (fun _ => h)
  cases hybrid with
  | false =>
    rw [htrap rfl]
    have : gScore (cfg P u W sets false false) c g = gPol (cfg P u W sets false false) c g := rfl
    rw [this]
    refine gPol_unit hw hw0 hw1 hm hlin ?_
    obtain ⟨k, h1, h2, h3⟩ := hlinw rfl
    refine ⟨k, ?_, h1, h2, h3⟩
    cases k <;> simp [varlist]
  | true =>
    rw [gScore_hybrid_trap P u W sets trap false c g]
    have e : gScore (cfg P u W sets true false) c g =
      if polFlag (cfg P u W sets true false) then
        if effTemp P u then gPol (cfg P u W sets true false) c g * gMember sets c .T g * gMember sets c .DZ g
        else gPol (cfg P u W sets true false) c g * gMember sets c .DZ g
      else if effTemp P u then gMember sets c .T g * gMember sets c .DZ g
      else gMember sets c .DZ g := rfl
    rw [e]
    have hpol : polFlag (cfg P u W sets true false) = true → Unit01 (val (gPol (cfg P u W sets true false) c g)) := by
      intro hf
      refine gPol_unit hw hw0 hw1 hm hlin ?_
      have : ∃ k ∈ pol, P k = true := by
        by_contra hne
        push Not at hne
        have h1 := hne .DR (by simp [pol])
        have h2 := hne .KD (by simp [pol])
        have h3 := hne .RH (by simp [pol])
        have h4 := hne .LD (by simp [pol])
        simp [polFlag, cfg, h1, h2, h3, h4] at hf
      obtain ⟨k, h1, h2, h3⟩ := hhyb rfl this
      exact ⟨k, h1, h2, fun hT => by subst hT; simp [pol] at h1, h3⟩
    split_ifs with h1 h2 h2
    · exact ((hpol h1).mul (mt h2)).mul md
    · exact (hpol h1).mul md
    · exact (mt h2).mul md
    · exact md

/-- memberships of the shipped tables -/
theorem member_unit {band : String} {s : Season} {P : Key → Bool} {c : Nat} (hg : GoodAt band s P c) {u : Bool} {f : α} {φ : ℝ}
    (hf : val f = .fin φ) (h1 : 2 ^ (-20 : ℤ) ≤ φ) (h2 : φ ≤ 2 ^ (20 : ℤ)) {g : Key → α} (hx : ∀ k, P k = true → ∃ y : ℝ, val (g k) = .fin y)
    (k : Key) (hk : P k = true) (hT : k = .T → effTemp P u = true) :
    Unit01 (val (gMember (setsOf s (effTemp P u) f band) c k g)) := by
  obtain ⟨rows, hr, hc, hgood⟩ := hg k hk
  obtain ⟨y, hy⟩ := hx k hk
  have e : gMember (setsOf s (effTemp P u) f band) c k g = beta ⟨rawVal rows[c].m / (if k = .T then f else 1.0),
      rawVal rows[c].a / (if k = .T then f else 1.0), rawVal rows[c].b / (if k = .T then f else 1.0)⟩ (g k) := by
    unfold gMember
    rw [setsOf_eq s _ f band k hT, hr]
    simp [getBetaSet, hc]
  rw [e]
  refine beta_unit ?_ hy
  by_cases hkT : k = .T
  · simp only [if_pos hkT]
    exact goodRowF hr (List.getElem_mem _) hgood hf h1 h2
  · simp only [if_neg hkT]
    exact goodRowF hr (List.getElem_mem _) hgood v1 (by norm_num) (by norm_num)

/-- no width of a usable table becomes zero -/
theorem noZeroWidth_float {band : String} {s : Season} {f : α} {φ : ℝ} (hf : val f = .fin φ) (h1 : 2 ^ (-20 : ℤ) ≤ φ) (h2 : φ ≤ 2 ^ (20 : ℤ))
    (h : ∀ k rows r, csv band s k = some rows → r ∈ rows → GoodRow r ∨ r.a = none) : NoZeroWidth α s band f := by
  intro k rows r hr hmem
  have hfac : ∃ φ' : ℝ, 2 ^ (-20 : ℤ) ≤ φ' ∧ φ' ≤ 2 ^ (20 : ℤ) ∧ val (if k = .T then f else (1.0 : α)) = .fin φ' := by
    split_ifs
    · exact ⟨φ, h1, h2, hf⟩
    · exact ⟨1, by norm_num, by norm_num, v1⟩
  obtain ⟨φ', p1, p2, e⟩ := hfac
  have z : ∀ a : α, (a ==. 0) = XR.eq (val a) (.fin 0) := by
    intro a
    have := val_eq a (0 : α)
    rw [Ieee.vzero] at this
    exact this
  rw [z]
  rcases h k rows r hr hmem with hg | hn
  · obtain ⟨x, hx, x0⟩ := (goodRowF hr hmem hg e p1 p2).a
    have hx' : val (rawVal r.a / (if k = .T then f else (1.0 : α))) = .fin x := hx
    rw [hx']
    simp [XR.eq, x0]
  · rw [hn]
    have hpos : φ' ≠ 0 := (lt_of_lt_of_le (by positivity) p1).ne'
    have : val (rawVal none / (if k = .T then f else (1.0 : α))) = .nan := by
      rw [Ieee.vdiv _ _ (by rw [e]; simpa using hpos)]
      show rnd α (val (PyFloat.nan : α) / _) = _
      rw [val_nan, XR.nan_div, rnd_nan]
    rw [this]; rfl

end Csu.Fhc
