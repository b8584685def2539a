import Verif.Props.Dsd2
import Mathlib.Analysis.SpecialFunctions.Pow.Continuity
/-!
# C53, C54 at the level of the call, in real numbers
-/
namespace Csu.Dsd
open Csu PyFloat Csu.Common XR
noncomputable section

/-! ## Specification: Bringi et al. (2004) on real numbers -/

/-- linear units of a decibel value -/
def L (x : ℝ) : ℝ := 10 ^ (x / 10)
/-- Eq. A.1 -/
def realBeta (d z k : ℝ) : ℝ := 2.08 * L d ^ (-0.365 : ℝ) * k ^ (0.38 : ℝ) * L z ^ (0.965 : ℝ)
/-- D0 of each method -/
def realD0 (m : Nat) (d z k : ℝ) : ℝ :=
  if m = 1 then 0.56 * L d ^ (0.064 : ℝ) * L z ^ (0.024 * realBeta d z k ^ (-1.42 : ℝ))
  else if m = 2 then 1.81 * z ^ (0.486 : ℝ)
  else if m = 3 then (z - 0.2) / 3 * (1.81 * z ^ (0.486 : ℝ)) + (0.5 - z) / 3 * (0.6096 * L d ^ (0.0516 : ℝ) * L z ^ (3.111 : ℝ))
  else 0.6096 * L d ^ (0.0516 : ℝ) * L z ^ (3.111 : ℝ)
/-- Nw of each method -/
def realNw (m : Nat) (d z k : ℝ) : ℝ :=
  if m = 1 then 10 ^ (3.29 * L d ^ (0.058 : ℝ) * L z ^ (-0.023 * realBeta d z k ^ (-1.389 : ℝ)))
  else 21 * L d / realD0 m d z k ^ (7.3529 : ℝ)
/-- mu of each method -/
def realMu (m : Nat) (d z k : ℝ) : ℝ :=
  if m = 1 then
    203 * realBeta d z k ^ (1.89 : ℝ) * (realD0 1 d z k ^ (2.23 * realBeta d z k ^ (0.0388 : ℝ)) / (L z - 1)) -
      3.16 * realBeta d z k ^ (-0.0463 : ℝ) * L z ^ (0.374 * realBeta d z k ^ (-0.355 : ℝ))
  else 3

/-! ## The gate -/

theorem L_pos (x : ℝ) : 0 < L x := lin_pos x

theorem lin_L (x : ℝ) : DsdSpec.lin (fin x) = fin (L x) := lin_fin x

theorem realBeta_pos (d z : ℝ) {k : ℝ} (hk : 0 < k) : 0 < realBeta d z k := by
  have := L_pos d; have := L_pos z; unfold realBeta; positivity

theorem realD0_pos {m : Nat} {d z k : ℝ} (h : Applies m d z k) : 0 < realD0 m d z k := by
  have := L_pos d; have := L_pos z
  rcases h with ⟨rfl, h1, h2, h3⟩ | ⟨rfl, h1, h2⟩ | ⟨rfl, h1, h2, h3⟩ | ⟨rfl, h1, h2, h3⟩
  · have := realBeta_pos d z (k := k) (lt_of_lt_of_le (by norm_num) h3)
    simp only [realD0, if_true]; positivity
  · have : 0 < z := lt_of_lt_of_le (by norm_num) h1
    norm_num [realD0]; positivity
  · have hz : 0 < z := lt_of_lt_of_le (by norm_num) h1
    simp only [realD0, show (3 : Nat) ≠ 1 by decide, show (3 : Nat) ≠ 2 by decide, if_false, if_true]
    have : 0 ≤ (z - 0.2) / 3 * (1.81 * z ^ (0.486 : ℝ)) := mul_nonneg (by linarith) (by positivity)
    have : 0 < (0.5 - z) / 3 * (0.6096 * L d ^ (0.0516 : ℝ) * L z ^ (3.111 : ℝ)) := mul_pos (by linarith) (by positivity)
    linarith
  · norm_num [realD0]; positivity

theorem realNw_pos {m : Nat} {d z k : ℝ} (h : Applies m d z k) : 0 < realNw m d z k := by
  have := L_pos d; have := realD0_pos h
  unfold realNw; split_ifs <;> positivity

theorem nwOf_fin (d : ℝ) {x : XR} {r : ℝ} (hr : 0 < r) (e : x = fin r) :
    DsdSpec.nwOf (fin d) x = fin (21 * L d / r ^ (7.3529 : ℝ)) := by
  subst e
  simp only [DsdSpec.nwOf, lin_L, fsci, fone, foflit]
  rw [fpow hr, fmul, fmul, one_mul, fdiv (by positivity)]

theorem d0m2_fin {z : ℝ} (hz : 0 < z) : DsdSpec.d0m2 (fin z) = fin (1.81 * z ^ (0.486 : ℝ)) := by
  simp only [DsdSpec.d0m2, fsci]; rw [fpow hz, fmul]

theorem d0m4_fin (d z : ℝ) :
    DsdSpec.d0m4 (fin d) (fin z) = fin (0.6096 * L d ^ (0.0516 : ℝ) * L z ^ (3.111 : ℝ)) := by
  simp only [DsdSpec.d0m4, lin_L, fsci]
  rw [fpow (L_pos d), fpow (L_pos z), fmul, fmul]

theorem gate_real {m : Nat} {d z k : ℝ} (h : Applies m d z k) :
    DsdSpec.s2004 (fin d) (fin z) (fin k) = ⟨fin (realD0 m d z k), fin (realNw m d z k), fin (realMu m d z k)⟩ := by
  have hm : 1 ≤ m ∧ m ≤ 4 := by rcases h with h | h | h | h <;> omega
  have hsel := (C53_method_iff d z k m hm).mpr h
  have hpos := realD0_pos h
  simp only [DsdSpec.s2004, hsel]
  have mu3 : (0 * DsdSpec.lin (fin d) + 3 : XR) = fin 3 := by rw [lin_L]; simp
  rcases h with ⟨rfl, h1, h2, h3⟩ | ⟨rfl, h1, h2⟩ | ⟨rfl, h1, h2, h3⟩ | ⟨rfl, h1, h2, h3⟩
  · have hk : (0 : ℝ) < k := lt_of_lt_of_le (by norm_num) h3
    have ld := L_pos d
    have lz := L_pos z
    have hb := realBeta_pos d z hk
    have eb : DsdSpec.beta (fin d) (fin z) (fin k) = fin (realBeta d z k) := by
      simp only [DsdSpec.beta, lin_L, fsci, fneg]
      rw [fpow ld, fpow hk, fpow lz, fmul, fmul, fmul]; rfl
    have er : DsdSpec.d0m1 (fin d) (fin z) (fin k) = fin (realD0 1 d z k) := by
      simp only [DsdSpec.d0m1, lin_L, eb, fsci, fneg]
      rw [fpow hb, fmul, fpow ld, fpow lz, fmul, fmul]; rfl
    have en : DsdSpec.nwm1 (fin d) (fin z) (fin k) = fin (realNw 1 d z k) := by
      simp only [DsdSpec.nwm1, lin_L, eb, fsci, fneg, foflit]
      rw [fpow hb, fmul, fpow ld, fpow lz, fmul, fmul, fpow (by norm_num)]; rfl
    have em : DsdSpec.mum1 (fin d) (fin z) (fin k) = fin (realMu 1 d z k) := by
      have hz1 : L z - 1 ≠ 0 := by
        have : (1 : ℝ) < 10 ^ (z / 10) := Real.one_lt_rpow (by norm_num) (by norm_num at h2 ⊢; linarith)
        unfold L; linarith
      simp only [DsdSpec.mum1, lin_L, eb, er, fsci, fneg, foflit, fone]
      rw [fpow hb, fpow hb, fpow hb, fpow hb]
      simp only [fmul, fsub]
      rw [fpow hpos, fpow lz, fdiv hz1]
      simp only [fmul, fsub]
      rfl
    simp only [DsdSpec.s2004of, if_true, er, en, em]
  · have e := d0m2_fin (z := z) (lt_of_lt_of_le (by norm_num) h1)
    simp only [DsdSpec.s2004of, if_true, show (2 : Nat) ≠ 1 by decide, if_false, nwOf_fin d hpos e, mu3]
    rw [e]; rfl
  · have e : DsdSpec.d0m3 (fin d) (fin z) = fin (realD0 3 d z k) :=
      d0m3_eq d z (d0m2_fin (lt_of_lt_of_le (by norm_num) h1)) (d0m4_fin d z)
    simp only [DsdSpec.s2004of, if_true, show (3 : Nat) ≠ 1 by decide, show (3 : Nat) ≠ 2 by decide, if_false,
      nwOf_fin d hpos e, mu3]
    rw [e]; rfl
  · have e := d0m4_fin d z
    simp only [DsdSpec.s2004of, if_true, show (4 : Nat) ≠ 1 by decide, show (4 : Nat) ≠ 2 by decide,
      show (4 : Nat) ≠ 3 by decide, if_false, nwOf_fin d hpos e, mu3]
    rw [e]; rfl

/-! ## The call -/

/-- **C53.** A 2004 call on arrays of one shape: at every gate with finite values, the documented condition of at most one
method holds; if that of `m` holds, D0, Nw and mu are the values of method `m`, D0 and Nw positive; if none holds, all three
are zero. -/
theorem C53_call (method : String) (hm : method ≠ "2013") (d z k : NdArray XR) (hs : RainSpec.SameShape d z k) :
    ∃ a b c : NdArray XR, calcDsd "S" method (some (.arr d)) (some (.arr z)) (some (.arr k)) = .ok (some (.arr a b c)) ∧
      a.shape = d.shape ∧ b.shape = d.shape ∧ c.shape = d.shape ∧
      ∀ (i : Nat) (dv zv kv : ℝ), d.data[i]? = some (fin dv) → z.data[i]? = some (fin zv) → k.data[i]? = some (fin kv) →
        (∀ m m', Applies m dv zv kv → Applies m' dv zv kv → m = m') ∧
        (∀ m, Applies m dv zv kv → a.data[i]? = some (fin (realD0 m dv zv kv)) ∧
          b.data[i]? = some (fin (realNw m dv zv kv)) ∧ c.data[i]? = some (fin (realMu m dv zv kv)) ∧
          0 < realD0 m dv zv kv ∧ 0 < realNw m dv zv kv) ∧
        ((∀ m, ¬ Applies m dv zv kv) →
          a.data[i]? = some (fin 0) ∧ b.data[i]? = some (fin 0) ∧ c.data[i]? = some (fin 0)) := by
  obtain ⟨a, b, c, e, h1, h2, h3, hv⟩ := C53_from_selected_method method hm d z k hs
  refine ⟨a, b, c, e, h1, h2, h3, fun i dv zv kv e1 e2 e3 => ⟨?_, ?_, ?_⟩⟩
  · intro m m' hm hm'
    have r : ∀ m, Applies m dv zv kv → 1 ≤ m ∧ m ≤ 4 := by
      intro m h; rcases h with h | h | h | h <;> omega
    rw [← (C53_method_iff dv zv kv m (r m hm)).mpr hm, ← (C53_method_iff dv zv kv m' (r m' hm')).mpr hm']
  · intro m hm
    obtain ⟨g, hg, e1, e2, e3⟩ := hv i _ _ _ e1 e2 e3
    have := gate_real hm
    unfold DsdSpec.s2004 at this
    rw [this] at hg
    subst hg
    exact ⟨e1, e2, e3, realD0_pos hm, realNw_pos hm⟩
  · intro hn
    obtain ⟨g, hg, e1, e2, e3⟩ := hv i _ _ _ e1 e2 e3
    have := C53_uncovered_zero dv zv kv hn
    unfold DsdSpec.s2004 at this
    rw [this] at hg
    subst hg
    exact ⟨e1, e2, e3⟩

/-- D0 that a 2004 call on one finite gate returns -/
def callD0 (d z k : ℝ) : Option XR :=
  match calcDsd "S" "2004" (some (.scalar .float (fin d))) (some (.scalar .float (fin z))) (some (.scalar .float (fin k))) with
  | .ok (some (.scalar d0 _ _)) => some d0
  | _ => none

theorem callD0_eq {m : Nat} {d z k : ℝ} (h : Applies m d z k) : callD0 d z k = some (fin (realD0 m d z k)) := by
  unfold callD0
  rw [C55_scalar "S" "2004" (.inl rfl)]
  have : DsdSpec.gate "S" "2004" (fin d) (fin z) (fin k) = DsdSpec.s2004 (fin d) (fin z) (fin k) := by
    simp [DsdSpec.gate]
  rw [this, gate_real h]

/-- Full statement of C54: D0 has no jump at zdr = 0.2 and zdr = 0.5 (small Kdp): the value at the boundary is the limit
from both sides. -/
def C54Full : Prop := ∀ (d k : ℝ), k < 0.3 → ∀ b : ℝ, (b = 0.2 ∨ b = 0.5) → ∃ f : ℝ → ℝ, ContinuousAt f b ∧
  ∀ᶠ z in nhds b, callD0 d z k = some (fin (f z))

/-- **C54**, what the call computes for every gate in the range: weights `(zdr-0.2)/3` and `(0.5-zdr)/3`, with sum 0.1. -/
theorem C54_call_partial (d z k : ℝ) (h1 : 0.2 ≤ z) (h2 : z < 0.5) (h3 : k < 0.3) :
    callD0 d z k = some (fin ((z - 0.2) / 3 * realD0 2 d z k + (0.5 - z) / 3 * realD0 4 d z k)) ∧
      (z - 0.2) / 3 + (0.5 - z) / 3 = 0.1 := by
  refine ⟨?_, by ring⟩
  rw [callD0_eq (.inr (.inr (.inl ⟨rfl, h1, h2, h3⟩)))]
  norm_num [realD0]

/-- **C54 is false of the code**: at zdr = 0.5 the method-2 value jumps to a tenth of itself just below. -/
theorem C54_full_false : ¬ C54Full := by
  intro h
  obtain ⟨f, hf, he⟩ := h 0 0 (by norm_num) 0.5 (.inr rfl)
  -- from the right (and at 0.5) the value is that of method 2, from the left a tenth of it in the limit
  have h5 : f 0.5 = 1.81 * (0.5 : ℝ) ^ (0.486 : ℝ) := by
    have := he.self_of_nhds
    rw [callD0_eq (m := 2) (.inr (.inl ⟨rfl, le_rfl, by norm_num⟩))] at this
    simp only [Option.some.injEq, fin_inj] at this
    rw [← this]; norm_num [realD0]
  let g : ℝ → ℝ := fun z => (z - 0.2) / 3 * (1.81 * z ^ (0.486 : ℝ)) +
    (0.5 - z) / 3 * (0.6096 * L 0 ^ (0.0516 : ℝ) * L z ^ (3.111 : ℝ))
  have hg : ContinuousAt g 0.5 := by
    have c1 : ContinuousAt (fun z : ℝ => z ^ (0.486 : ℝ)) 0.5 :=
      Real.continuousAt_rpow_const _ _ (Or.inl (by norm_num))
    have c2 : ContinuousAt (fun z : ℝ => L z ^ (3.111 : ℝ)) 0.5 := by
      apply ContinuousAt.rpow_const
      · unfold L
        exact ContinuousAt.rpow continuousAt_const (continuousAt_id.div_const _) (Or.inl (by norm_num))
      · exact Or.inl (L_pos _).ne'
    have c0 : ContinuousAt (fun z : ℝ => z) 0.5 := continuousAt_id
    exact (((c0.sub continuousAt_const).div_const _).mul (continuousAt_const.mul c1)).add
      (((continuousAt_const.sub c0).div_const _).mul (continuousAt_const.mul c2))
  have hlt : ∀ᶠ z in nhdsWithin (0.5 : ℝ) (Set.Iio 0.5), f z = g z := by
    have h1 : ∀ᶠ z in nhdsWithin (0.5 : ℝ) (Set.Iio 0.5), callD0 0 z 0 = some (fin (f z)) :=
      he.filter_mono nhdsWithin_le_nhds
    have h2 : ∀ᶠ z in nhdsWithin (0.5 : ℝ) (Set.Iio 0.5), z < 0.5 := eventually_mem_nhdsWithin
    have h3 : ∀ᶠ z in nhdsWithin (0.5 : ℝ) (Set.Iio 0.5), 0.2 ≤ z :=
      (eventually_ge_nhds (by norm_num : (0.2 : ℝ) < 0.5)).filter_mono nhdsWithin_le_nhds
    filter_upwards [h1, h2, h3] with z z1 z2 z3
    rw [(C54_call_partial 0 z 0 z3 z2 (by norm_num)).1] at z1
    simp only [Option.some.injEq, fin_inj] at z1
    rw [← z1]; norm_num [realD0, g]
  have l1 : Filter.Tendsto f (nhdsWithin (0.5 : ℝ) (Set.Iio 0.5)) (nhds (f 0.5)) := hf.tendsto.mono_left nhdsWithin_le_nhds
  have l2 : Filter.Tendsto f (nhdsWithin (0.5 : ℝ) (Set.Iio 0.5)) (nhds (g 0.5)) :=
    (hg.tendsto.mono_left nhdsWithin_le_nhds).congr' (hlt.mono fun _ h => h.symm)
  have := tendsto_nhds_unique l1 l2
  rw [h5] at this
  simp only [g] at this
  norm_num at this

end
end Csu.Dsd
