import Verif.Props.Dsd
/-!
# Properties C53, C54: Bringi et al. (2004)
-/
namespace Csu.Dsd
open Csu PyFloat Csu.Common XR

/-- The documented condition of each 2004 method, on real values. -/
def Applies (m : Nat) (d z k : ℝ) : Prop :=
  (m = 1 ∧ 35 ≤ d ∧ 0.2 ≤ z ∧ 0.3 ≤ k) ∨ (m = 2 ∧ 0.5 ≤ z ∧ k < 0.3) ∨
  (m = 3 ∧ 0.2 ≤ z ∧ z < 0.5 ∧ k < 0.3) ∨ (m = 4 ∧ -0.5 ≤ z ∧ z < 0.2 ∧ k < 0.3)

theorem method2004_fin (d z k : ℝ) :
    DsdSpec.method2004 (fin d) (fin z) (fin k) =
      if (-0.5 ≤ z ∧ z < 0.2) ∧ k < 0.3 then 4 else if (0.2 ≤ z ∧ z < 0.5) ∧ k < 0.3 then 3
      else if 0.5 ≤ z ∧ k < 0.3 then 2 else if (35 ≤ d ∧ 0.2 ≤ z) ∧ 0.3 ≤ k then 1 else 0 := by
  simp only [DsdSpec.method2004, fsci, fneg, foflit, fge, flt, Bool.and_eq_true, decide_eq_true_eq]

/-- **C53.** At a gate with finite values the retrieval uses method `m` exactly when the documented condition of `m`
holds; hence at most one condition holds, and 0 (no method) exactly when none does. -/
theorem C53_method_iff (d z k : ℝ) (m : Nat) (hm : 1 ≤ m ∧ m ≤ 4) :
    DsdSpec.method2004 (fin d) (fin z) (fin k) = m ↔ Applies m d z k := by
  rw [method2004_fin]
  have e1 : (0.2 : ℝ) < 0.5 := by norm_num
  have e2 : (-0.5 : ℝ) < 0.2 := by norm_num
  obtain ⟨h1, h2⟩ := hm
  have : m = 1 ∨ m = 2 ∨ m = 3 ∨ m = 4 := by omega
  rcases this with rfl | rfl | rfl | rfl <;> simp only [Applies] <;> norm_num <;> split_ifs <;>
    simp_all <;> linarith

/-- **C53**, exclusivity, for all floats including NaN and infinities, on the conditions as the code writes them. -/
theorem C53_mutually_exclusive (d z k : XR) :
    let c1 := (d >=. 35) && (z >=. 0.2) && (k >=. 0.3)
    let c2 := (z >=. 0.5) && (k <. 0.3)
    let c3 := (z >=. 0.2) && (z <. 0.5) && (k <. 0.3)
    let c4 := (z >=. -0.5) && (z <. 0.2) && (k <. 0.3)
    (c1 && c2) = false ∧ (c1 && c3) = false ∧ (c1 && c4) = false ∧ (c2 && c3) = false ∧ (c2 && c4) = false ∧
      (c3 && c4) = false := by
  have ex : ∀ (x : XR) (a b : ℝ), b ≤ a → ((x >=. fin a) && (x <. fin b)) = false := by
    intro x a b h
    cases x with
    | nan => rfl
    | ninf => rfl
    | pinf => rfl
    | fin r => simp only [fge, flt]; simp; intro h1; linarith
  have k1 := ex k 0.3 0.3 le_rfl
  have z1 := ex z 0.5 0.5 le_rfl
  have z2 := ex z 0.5 0.2 (by norm_num)
  have z3 := ex z 0.2 0.2 le_rfl
  simp only [fsci, fneg]
  revert k1 z1 z2 z3
  generalize (k >=. fin 0.3) = a1
  generalize (k <. fin 0.3) = a2
  generalize (z >=. fin 0.5) = a3
  generalize (z <. fin 0.5) = a4
  generalize (z <. fin 0.2) = a5
  generalize (z >=. fin 0.2) = a6
  generalize (z >=. fin (-0.5)) = a7
  generalize (d >=. 35) = a8
  revert a1 a2 a3 a4 a5 a6 a7 a8
  decide

/-- **C53.** Every output of a 2004 call (any shape, any floats) comes from the one selected method: D0, Nw and mu of
the gate are that method's formulas. -/
theorem C53_from_selected_method {α : Type} [PyFloat α] (method : String) (hm : method ≠ "2013") (d z k : NdArray α)
    (hs : RainSpec.SameShape d z k) :
    ∃ a b c : NdArray α, calcDsd "S" method (some (.arr d)) (some (.arr z)) (some (.arr k)) =
        .ok (some (.arr a b c)) ∧ a.shape = d.shape ∧ b.shape = d.shape ∧ c.shape = d.shape ∧
      ∀ (i : Nat) (dv zv kv : α), d.data[i]? = some dv → z.data[i]? = some zv → k.data[i]? = some kv →
        ∃ g, g = DsdSpec.s2004of dv zv kv (DsdSpec.method2004 dv zv kv) ∧
          a.data[i]? = some g.d0 ∧ b.data[i]? = some g.nw ∧ c.data[i]? = some g.mu := by
  obtain ⟨a, b, c, e, h1, h2, h3, -, -, -, hv⟩ := C55_arrays_gatewise "S" method (.inl rfl) d z k hs
  refine ⟨a, b, c, e, h1, h2, h3, fun i dv zv kv e1 e2 e3 => ⟨_, rfl, ?_⟩⟩
  have := hv i dv zv kv e1 e2 e3
  simpa only [DsdSpec.gate, if_true, if_neg hm, DsdSpec.s2004] using this

/-- **C53.** Gates covered by no method get zeros. -/
theorem C53_uncovered_zero (d z k : ℝ) (h : ∀ m, ¬ Applies m d z k) :
    DsdSpec.s2004 (fin d) (fin z) (fin k) = ⟨fin 0, fin 0, fin 0⟩ := by
  have h0 : DsdSpec.method2004 (fin d) (fin z) (fin k) = 0 := by
    by_contra hne
    refine h _ ((C53_method_iff d z k _ ⟨Nat.one_le_iff_ne_zero.mpr hne, ?_⟩).mp rfl)
    rw [method2004_fin]; split_ifs <;> norm_num
  simp [DsdSpec.s2004, h0, DsdSpec.s2004of]

theorem nwOf_pos (d : ℝ) {x : XR} (hx : PosFin x) : PosFin (DsdSpec.nwOf (fin d) x) := by
  obtain ⟨r, hr, rfl⟩ := hx
  simp only [DsdSpec.nwOf, lin_fin, fsci, fone, foflit]
  rw [fpow hr, fmul, fmul, fdiv (by positivity)]
  exact ⟨_, by have := lin_pos d; positivity, rfl⟩

theorem d0m2_pos {z : ℝ} (hz : 0 < z) : ∃ r : ℝ, 0 < r ∧ DsdSpec.d0m2 (fin z) = fin r := by
  simp only [DsdSpec.d0m2, fsci]
  rw [fpow hz, fmul]; exact ⟨_, by positivity, rfl⟩

theorem d0m4_pos (d z : ℝ) : ∃ r : ℝ, 0 < r ∧ DsdSpec.d0m4 (fin d) (fin z) = fin r := by
  simp only [DsdSpec.d0m4, lin_fin, fsci]
  rw [fpow (lin_pos d), fpow (lin_pos z), fmul, fmul]
  exact ⟨_, by have := lin_pos d; have := lin_pos z; positivity, rfl⟩

theorem d0m3_eq (d z : ℝ) {a b : ℝ} (ha : DsdSpec.d0m2 (fin z) = fin a) (hb : DsdSpec.d0m4 (fin d) (fin z) = fin b) :
    DsdSpec.d0m3 (fin d) (fin z) = fin ((z - 0.2) / 3 * a + (0.5 - z) / 3 * b) := by
  simp only [DsdSpec.d0m3, ha, hb, fsci, fsub, foflit]
  rw [fdiv (by norm_num), fdiv (by norm_num), fmul, fmul, fadd]

/-- **C53.** Where a method applies, D0 and Nw are positive and finite and mu is finite (3 for methods 2 to 4). -/
theorem C53_applicable_physical (d z k : ℝ) (m : Nat) (h : Applies m d z k) :
    PosFin (DsdSpec.s2004 (fin d) (fin z) (fin k)).d0 ∧ PosFin (DsdSpec.s2004 (fin d) (fin z) (fin k)).nw ∧
    ∃ u : ℝ, (DsdSpec.s2004 (fin d) (fin z) (fin k)).mu = fin u ∧ (m ≠ 1 → u = 3) := by
  have hm : 1 ≤ m ∧ m ≤ 4 := by rcases h with h | h | h | h <;> omega
  have hsel := (C53_method_iff d z k m hm).mpr h
  simp only [DsdSpec.s2004, hsel]
  have mu3 : (0 * DsdSpec.lin (fin d) + 3 : XR) = fin 3 := by rw [lin_fin]; simp
  rcases h with ⟨rfl, h1, h2, h3⟩ | ⟨rfl, h1, h2⟩ | ⟨rfl, h1, h2, h3⟩ | ⟨rfl, h1, h2, h3⟩
  · simp only [DsdSpec.s2004of, if_true]
    have hk : (0 : ℝ) < k := lt_of_lt_of_le (by norm_num) h3
    have ld := lin_pos d
    have lz := lin_pos z
    obtain ⟨b, hb, eb⟩ : ∃ b : ℝ, 0 < b ∧ DsdSpec.beta (fin d) (fin z) (fin k) = fin b := by
      simp only [DsdSpec.beta, lin_fin, fsci, fneg]
      rw [fpow ld, fpow hk, fpow lz, fmul, fmul, fmul]
      exact ⟨_, by positivity, rfl⟩
    obtain ⟨r, hr, er⟩ : ∃ r : ℝ, 0 < r ∧ DsdSpec.d0m1 (fin d) (fin z) (fin k) = fin r := by
      simp only [DsdSpec.d0m1, lin_fin, eb, fsci, fneg]
      rw [fpow hb, fmul, fpow ld, fpow lz, fmul, fmul]
      exact ⟨_, by positivity, rfl⟩
    refine ⟨⟨r, hr, er⟩, ?_, ?_⟩
    · simp only [DsdSpec.nwm1, lin_fin, eb, fsci, fneg, foflit]
      rw [fpow hb, fmul, fpow ld, fpow lz, fmul, fmul, fpow (by norm_num)]
      exact ⟨_, by positivity, rfl⟩
    · have hz1 : (10 : ℝ) ^ (z / 10) - 1 ≠ 0 := by
        have : (1 : ℝ) < 10 ^ (z / 10) := Real.one_lt_rpow (by norm_num) (by norm_num at h2 ⊢; linarith)
        linarith
      simp only [DsdSpec.mum1, lin_fin, eb, er, fsci, fneg, foflit, fone]
      rw [fpow hb, fpow hb, fpow hb, fpow hb]
      simp only [fmul, fsub]
      rw [fpow hr, fpow lz, fdiv hz1]
      simp only [fmul, fsub]
      exact ⟨_, rfl, fun h => absurd rfl h⟩
  · simp only [DsdSpec.s2004of, if_true, show (2 : Nat) ≠ 1 by decide, if_false]
    obtain ⟨r, hr, er⟩ := d0m2_pos (z := z) (lt_of_lt_of_le (by norm_num) h1)
    exact ⟨⟨r, hr, er⟩, nwOf_pos d ⟨r, hr, er⟩, 3, mu3, fun _ => rfl⟩
  · simp only [DsdSpec.s2004of, if_true, show (3 : Nat) ≠ 1 by decide, show (3 : Nat) ≠ 2 by decide, if_false]
    obtain ⟨a, ha, ea⟩ := d0m2_pos (z := z) (lt_of_lt_of_le (by norm_num) h1)
    obtain ⟨b, hb, eb⟩ := d0m4_pos d z
    have hp : PosFin (DsdSpec.d0m3 (fin d) (fin z)) := by
      refine ⟨_, ?_, d0m3_eq d z ea eb⟩
      have : 0 ≤ (z - 0.2) / 3 * a := mul_nonneg (by linarith) ha.le
      have : 0 < (0.5 - z) / 3 * b := mul_pos (by linarith) hb
      linarith
    exact ⟨hp, nwOf_pos d hp, 3, mu3, fun _ => rfl⟩
  · simp only [DsdSpec.s2004of, if_true, show (4 : Nat) ≠ 1 by decide, show (4 : Nat) ≠ 2 by decide,
      show (4 : Nat) ≠ 3 by decide, if_false]
    obtain ⟨r, hr, er⟩ := d0m4_pos d z
    exact ⟨⟨r, hr, er⟩, nwOf_pos d ⟨r, hr, er⟩, 3, mu3, fun _ => rfl⟩

/-- gates covered by each method, and one covered by none -/
example : Applies 1 45 1 1 ∧ Applies 2 30 1 0.1 ∧ Applies 3 30 0.3 0.1 ∧ Applies 4 30 0 0.1 ∧
    ∀ m, ¬ Applies m 30 1 1 := by
  refine ⟨?_, ?_, ?_, ?_, ?_⟩ <;> norm_num [Applies]

/-! ## C54 -/

/-- Full statement of C54: D0 of a gate with `0.2 <= zdr < 0.5`, `kdp < 0.3` is a weighted mean of the values methods 2
and 4 would give. -/
def WeightedMean : Prop :=
  ∀ d z k : ℝ, 0.2 ≤ z → z < 0.5 → k < 0.3 → ∃ w2 w4 a b r : ℝ, 0 ≤ w2 ∧ 0 ≤ w4 ∧ w2 + w4 = 1 ∧
    DsdSpec.d0m2 (fin z) = fin a ∧ DsdSpec.d0m4 (fin d) (fin z) = fin b ∧
    (DsdSpec.s2004 (fin d) (fin z) (fin k)).d0 = fin r ∧ r = w2 * a + w4 * b

/-- **C54**, what the code computes, for every gate in the range: the weights are `(zdr-0.2)/3` and `(0.5-zdr)/3`,
which sum to 0.1. -/
theorem C54_blend_partial (d z k : ℝ) (h1 : 0.2 ≤ z) (h2 : z < 0.5) (h3 : k < 0.3) :
    ∃ w2 w4 a b : ℝ, w2 = (z - 0.2) / 3 ∧ w4 = (0.5 - z) / 3 ∧ w2 + w4 = 0.1 ∧ 0 < a ∧ 0 < b ∧
      DsdSpec.d0m2 (fin z) = fin a ∧ DsdSpec.d0m4 (fin d) (fin z) = fin b ∧
      (DsdSpec.s2004 (fin d) (fin z) (fin k)).d0 = fin (w2 * a + w4 * b) := by
  obtain ⟨a, ha, ea⟩ := d0m2_pos (z := z) (lt_of_lt_of_le (by norm_num) h1)
  obtain ⟨b, hb, eb⟩ := d0m4_pos d z
  have hsel := (C53_method_iff d z k 3 (by norm_num)).mpr (.inr (.inr (.inl ⟨rfl, h1, h2, h3⟩)))
  refine ⟨_, _, a, b, rfl, rfl, by ring, ha, hb, ea, eb, ?_⟩
  simp only [DsdSpec.s2004, hsel, DsdSpec.s2004of, if_true, show (3 : Nat) ≠ 1 by decide,
    show (3 : Nat) ≠ 2 by decide, if_false]
  exact d0m3_eq d z ea eb

/-- **C54**: at `zdr = 0.2` D0 is one tenth of the method-4 value, for every reflectivity. -/
theorem C54_jump_at_0_2 (d k : ℝ) (h3 : k < 0.3) :
    ∃ b : ℝ, 0 < b ∧ DsdSpec.d0m4 (fin d) (fin 0.2) = fin b ∧
      (DsdSpec.s2004 (fin d) (fin 0.2) (fin k)).d0 = fin (0.1 * b) := by
  obtain ⟨w2, w4, a, b, e2, e4, -, -, hb, -, eb, e⟩ := C54_blend_partial d 0.2 k le_rfl (by norm_num) h3
  refine ⟨b, hb, eb, ?_⟩
  rw [e, e2, e4, fin_inj]; norm_num

/-- **C54 is false of the code**: at zdr = 0.2, where the value is a tenth of method 4's, unless method 2's value were
that small, which it is not (0 dBZ). -/
theorem C54_weighted_mean_false : ¬ WeightedMean := by
  intro h
  obtain ⟨w2, w4, a, b, r, h2, h4, hw, ea, eb, er, hr⟩ := h 0 0.2 0 le_rfl (by norm_num) (by norm_num)
  obtain ⟨b', hb', eb', er'⟩ := C54_jump_at_0_2 0 0 (by norm_num)
  rw [eb] at eb'; rw [er] at er'
  rw [fin_inj] at eb' er'
  subst eb'
  have hb : b = 0.6096 * ((10 : ℝ) ^ (0.2 / 10 : ℝ)) ^ (3.111 : ℝ) := by
    have : DsdSpec.d0m4 (fin 0) (fin 0.2) = fin (0.6096 * ((10 : ℝ) ^ (0.2 / 10 : ℝ)) ^ (3.111 : ℝ)) := by
      simp only [DsdSpec.d0m4, lin_fin, fsci]
      rw [fpow (lin_pos 0), fpow (lin_pos _), fmul, fmul]; norm_num
    rw [eb, fin_inj] at this; exact this
  have ha : a = 1.81 * (0.2 : ℝ) ^ (0.486 : ℝ) := by
    have : DsdSpec.d0m2 (fin 0.2) = fin (1.81 * (0.2 : ℝ) ^ (0.486 : ℝ)) := by
      simp only [DsdSpec.d0m2, fsci]; rw [fpow (by norm_num), fmul]
    rw [ea, fin_inj] at this; exact this
  have hb1 : b ≤ 1.93 := by
    rw [hb, ← Real.rpow_mul (by norm_num)]
    have : (10 : ℝ) ^ (0.2 / 10 * 3.111 : ℝ) ≤ 10 ^ (1 / 2 : ℝ) :=
      Real.rpow_le_rpow_of_exponent_le (by norm_num) (by norm_num)
    have h10 : (10 : ℝ) ^ (1 / 2 : ℝ) ≤ 3.165 := by
      rw [← Real.sqrt_eq_rpow]; exact (Real.sqrt_le_left (by norm_num)).mpr (by norm_num)
    nlinarith
  have ha1 : 0.36 ≤ a := by
    rw [ha]
    have : (0.2 : ℝ) ^ (1 : ℝ) ≤ (0.2 : ℝ) ^ (0.486 : ℝ) :=
      Real.rpow_le_rpow_of_exponent_ge (by norm_num) (by norm_num) (by norm_num)
    rw [Real.rpow_one] at this
    nlinarith
  have hb2 : 0.6 ≤ b := by
    rw [hb]
    have : (1 : ℝ) ≤ ((10 : ℝ) ^ (0.2 / 10 : ℝ)) ^ (3.111 : ℝ) :=
      Real.one_le_rpow (Real.one_le_rpow (by norm_num) (by norm_num)) (by norm_num)
    nlinarith
  nlinarith

example : (0.2 : ℝ) ≤ 0.35 ∧ (0.35 : ℝ) < 0.5 := by norm_num

end Csu.Dsd
