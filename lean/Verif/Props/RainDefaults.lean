import Verif.Props.Rain3
/-!
# Property C110: what the rain retrievals compute with their documented default thresholds and coefficients

The other rain properties hold for every choice of parameters; here every keyword keeps its default and the rule is written
with plain real numbers, so that the numbers themselves are part of the statement.
-/
namespace Csu.Rain
open Csu PyFloat Csu.RainSpec XR

/-! ## The rule, in real arithmetic (nothing of the model is used here) -/

/-- linear reflectivity -/
noncomputable def zLin (d : ℝ) : ℝ := 10 ^ (d / 10)
/-- difference reflectivity (dB), floored at 1e-12 -/
noncomputable def zDpDb (d z : ℝ) : ℝ :=
  10 * Real.logb 10 (if zLin d - zLin d / zLin z ≤ 0 then 1 / 10 ^ 12 else zLin d - zLin d / zLin z)
/-- reflectivity (dBZ) of the rain alone, from the line of Carey and Rutledge -/
noncomputable def rainDbz (d z : ℝ) : ℝ := 0.9091 * zDpDb d z + 8.5091
/-- fraction of the reflectivity due to ice -/
noncomputable def fracIce (d z : ℝ) : ℝ := 1 - zLin (rainDbz d z) / zLin d
/-- NEXRAD relation Z = 300 R^1.4 with reflectivity capped at 53 dBZ -/
noncomputable def nexrad (d : ℝ) : ℝ := (zLin (min d 53) / 300) ^ (1 / 1.4 : ℝ)

open Classical in
/-- method at S band -/
noncomputable def defMethodS (d z k : ℝ) : Int :=
  if 38 ≤ d ∧ 0.3 ≤ k then (if fracIce d z < 0.1 ∧ 0.5 ≤ z then 1 else 2)
  else if fracIce d z < 0.1 then (if 0.5 ≤ z then 3 else 4)
  else 5

/-- rate of each method -/
noncomputable def defRate (d z k : ℝ) (m : Int) : ℝ :=
  if m = 1 then 90.8 * k ^ (0.93 : ℝ) * 10 ^ (-0.169 * z)
  else if m = 2 then 40.5 * k ^ (0.85 : ℝ)
  else if m = 3 then 0.0067 * zLin d ^ (0.927 : ℝ) * 10 ^ (-0.343 * z)
  else if m = 4 then nexrad d
  else nexrad (rainDbz d z)

open Classical in
/-- tropical method without class arrays -/
noncomputable def defTropMethod (d z k : ℝ) : Int :=
  if d < -10 then -1
  else if 38 ≤ d ∧ 0.3 ≤ k then (if 0.25 ≤ z then 1 else 2)
  else if 0.25 ≤ z then 3 else 4

/-- tropical rate at S band -/
noncomputable def defTropRate (d z k : ℝ) (m : Int) : ℝ :=
  if m = 1 then 96.5726 * k ^ (0.9315 : ℝ) * 10 ^ (-0.21140 * z)
  else if m = 2 then 59.5202 * k ^ (0.7451 : ℝ)
  else if m = 3 then 0.0085 * zLin d ^ (0.9237 : ℝ) * 10 ^ (-0.52389 * z)
  else if m = 4 then (zLin d / 216) ^ (1 / 1.39 : ℝ)
  else 0

/-! ## Evaluation at finite gates -/

theorem zLin_pos (d : ℝ) : 0 < zLin d := lin_pos d

theorem lin_zLin (d : ℝ) : lin (fin d) = fin (zLin d) := lin_fin d

theorem zdpDb_real (d z : ℝ) : zdpDb (fin d) (fin z) = fin (zDpDb d z) := by
  have hz := zLin_pos z
  simp only [zdpDb, lin_zLin, fdiv hz.ne', fsub, fzero, fle, foflit, fsci]
  unfold zDpDb
  split_ifs with h h1 h1
  · rw [flog10 (by norm_num), fmul]; norm_num
  · exact absurd (by simpa using h) h1
  · exact absurd (by simpa using h1) (by simpa using h)
  · rw [flog10 (by push Not at h1; exact h1), fmul]

theorem rZRcap_real (d : ℝ) : rZRcap (53 : XR) 300 1.4 (fin d) = fin (nexrad d) := by
  simp only [rZRcap, foflit, fsci, flt]
  have e : ∀ x : ℝ, rZR (fin 300) (fin 1.4) (fin x) = fin ((zLin x / 300) ^ (1 / 1.4 : ℝ)) := by
    intro x; rw [rZR_fin (by norm_num) (by norm_num)]; rfl
  unfold nexrad
  split_ifs with h
  · have h : (53 : ℝ) < d := by simpa using h
    rw [min_eq_right h.le]; exact e 53
  · have h : d ≤ (53 : ℝ) := by simpa using h
    rw [min_eq_left h]; exact e d

theorem zRain_real (d z : ℝ) : zRain (0.9091 : XR) 8.5091 (fin d) (fin z) = fin (zLin (rainDbz d z)) := by
  simp only [zRain, zdpDb_real, fsci, foflit, fmul, fadd]
  rw [fdiv (by norm_num), fpow (by norm_num)]; rfl

theorem rainDbz_real (d z : ℝ) : (10 : XR) * PyFloat.log10 (zRain (0.9091 : XR) 8.5091 (fin d) (fin z)) = fin (rainDbz d z) := by
  rw [zRain_real, flog10 (zLin_pos _), foflit, fmul, zLin, Real.logb_rpow (by norm_num) (by norm_num)]
  congr 1; ring

theorem methodS_real (d z k : ℝ) :
    methodS (Params.default : Params XR) 0.9091 8.5091 (fin d) (fin z) (fin k) = defMethodS d z k := by
  have hi : iceFraction (0.9091 : XR) 8.5091 (fin d) (fin z) = fin (fracIce d z) := by
    simp only [iceFraction, zRain_real, lin_zLin, fone]
    rw [fdiv (zLin_pos d).ne', fsub]; rfl
  simp only [methodS, hi]
  simp only [Params.default, defMethodS, foflit, fsci, fle, flt, Bool.and_eq_true, decide_eq_true_eq]
  by_cases h1 : 38 ≤ d ∧ 0.3 ≤ k <;> by_cases h2 : fracIce d z < 0.1 <;> by_cases h3 : 0.5 ≤ z <;> simp [h1, h2, h3]

theorem rate_real (d z k : ℝ) (m : Int) (hm : m ∈ ([1, 2, 3, 4, 5] : List Int)) (hk : m = 1 ∨ m = 2 → 0.3 ≤ k) :
    rate (Params.default : Params XR) 53 0.9091 8.5091 (fin d) (fin z) (fin k) m =
      fin (defRate d z k m) := by
  have h10 : ∀ c : ℝ, ((10 : XR) ^ (-fin c * fin z)) = fin ((10 : ℝ) ^ (-c * z)) := by
    intro c; simp only [foflit, fmul, fneg]; rw [fpow (by norm_num)]
  simp only [List.mem_cons, List.not_mem_nil, or_false] at hm
  rcases hm with rfl | rfl | rfl | rfl | rfl
  · have : (0 : ℝ) < k := by have := hk (.inl rfl); linarith
    simp only [rate, defRate, Params.default, if_true, fsci, h10]
    rw [fpow this, fmul, fmul]
  · have : (0 : ℝ) < k := by have := hk (.inr rfl); linarith
    simp only [rate, defRate, Params.default, if_true, fsci, Int.reduceEq, if_false]
    rw [fpow this, fmul]
  · simp only [rate, defRate, Params.default, if_true, fsci, Int.reduceEq, if_false, h10, lin_zLin]
    rw [fpow (zLin_pos d), fmul, fmul]
  · simp only [rate, defRate, Params.default, if_true, Int.reduceEq, if_false, rZRcap_real]
  · simp only [rate, defRate, Params.default, if_true, Int.reduceEq, if_false, rainDbz_real, rZRcap_real]

/-- the class-guided method, propositionally -/
theorem hidro_cases {A B D K Z : Prop} [Decidable A] [Decidable B] [Decidable D] [Decidable K] [Decidable Z] (ha : A → ¬ B) :
    let mm : Int := if A then (if D ∧ K then (if Z then 1 else 2) else if D ∧ Z then 3 else 4)
      else if B ∧ K then 2 else 0
    (mm = 1 ↔ A ∧ D ∧ K ∧ Z) ∧ (mm = 2 ↔ (A ∧ D ∧ K ∧ ¬ Z) ∨ (B ∧ K)) ∧ (mm = 3 ↔ A ∧ D ∧ ¬ K ∧ Z) ∧
    (mm = 4 ↔ A ∧ (¬ D ∨ (¬ K ∧ ¬ Z))) ∧ (mm = 0 ↔ ¬ A ∧ ¬ (B ∧ K)) := by
  intro mm
  by_cases hA : A
  · have hB := ha hA
    by_cases hD : D <;> by_cases hK : K <;> by_cases hZ : Z <;> simp [mm, hA, hB, hD, hK, hZ]
  · by_cases hB : B <;> by_cases hK : K <;> simp [mm, hA, hB, hK]

open Classical in
theorem hidro_real (dv zv kv : ℝ) (cv : Int) :
    hidroMethodS (Params.default : Params XR) (fin dv) (fin zv) (fin kv) cv =
      if cv = 1 ∨ cv = 2 ∨ cv = 10 then
        (if 38 ≤ dv ∧ 0.3 ≤ kv then (if 0.5 ≤ zv then 1 else 2) else if 38 ≤ dv ∧ 0.5 ≤ zv then 3 else 4)
      else if (cv = 5 ∨ cv = 7 ∨ cv = 8 ∨ cv = 9) ∧ 0.3 ≤ kv then 2 else 0 := by
  simp only [hidroMethodS, Params.default, foflit, fsci, fle, Bool.and_eq_true, decide_eq_true_eq]

theorem tropMethod_real (dv zv kv : ℝ) :
    tropMethod (TropParams.default : TropParams XR) (fin dv) (fin zv) (fin kv) none = defTropMethod dv zv kv := by
  simp only [tropMethod, TropParams.default, defTropMethod, foflit, fsci, fle, flt, fneg, Bool.and_eq_true, decide_eq_true_eq]

theorem tropRate_real (d z k : ℝ) (m : Int) (hm : m ∈ ([1, 2, 3, 4] : List Int)) (hk : m = 1 ∨ m = 2 → 0.3 ≤ k) :
    tropRate (TropParams.default : TropParams XR) (fin d) (fin z) (fin k) m = fin (defTropRate d z k m) := by
  have h10 : ∀ c : ℝ, (fin 10 ^ (-fin c / fin 10 * fin z)) = fin ((10 : ℝ) ^ (-c / 10 * z)) := by
    intro c; rw [fneg, fdiv (by norm_num), fmul, fpow (by norm_num)]
  simp only [List.mem_cons, List.not_mem_nil, or_false] at hm
  rcases hm with rfl | rfl | rfl | rfl
  · have : (0 : ℝ) < k := by have := hk (.inl rfl); linarith
    simp only [tropRate, defTropRate, TropParams.default, if_true, fsci, foflit, h10]
    rw [fpow this, fmul, fmul]; norm_num
  · have : (0 : ℝ) < k := by have := hk (.inr rfl); linarith
    simp only [tropRate, defTropRate, TropParams.default, if_true, fsci, Int.reduceEq, if_false]
    rw [fpow this, fmul]
  · simp only [tropRate, defTropRate, TropParams.default, if_true, fsci, foflit, Int.reduceEq, if_false, h10, lin_zLin]
    rw [fpow (zLin_pos d), fmul, fmul]; norm_num
  · simp only [tropRate, defTropRate, TropParams.default, if_true, fsci, foflit, Int.reduceEq, if_false]
    rw [rZR_fin (by norm_num) (by norm_num)]; rfl

/-! ## The calls -/

/-- **C110**, `calc_blended_rain` at S band with every default: the written-out rule at every gate with finite observables. -/
theorem C110_blended_S (d z k : NdArray XR) (hs : SameShape d z k) (ht : d.dtype = .float) :
    ∃ r m, calcBlendedRain Params.default "S" false (some (.arr d)) (some (.arr z)) (some (.arr k)) = .ok (some (.arr r m none)) ∧
      ∀ (i : Nat) (dv zv kv : ℝ), d.data[i]? = some (fin dv) → z.data[i]? = some (fin zv) → k.data[i]? = some (fin kv) →
        m.data[i]? = some (defMethodS dv zv kv) ∧ r.data[i]? = some (fin (defRate dv zv kv (defMethodS dv zv kv))) := by
  obtain ⟨r, m, call, -, -, -, -, h⟩ := C38_blended_S_exact (Params.default : Params XR) 0.9091 8.5091
    (.inr (.inr (.inl ⟨rfl, rfl, rfl, rfl⟩))) d z k hs
  refine ⟨r, m, call, ?_⟩
  intro i dv zv kv hd hz hk
  obtain ⟨h1, h2⟩ := h i _ _ _ hd hz hk
  rw [ht] at h2
  rw [methodS_real] at h1 h2
  refine ⟨h1, ?_⟩
  rw [h2, show (Params.default : Params XR).threshNexrad = 53 from rfl, rate_real]
  · rfl
  · rw [← methodS_real]; exact C38_method_range _ _ _ _ _ _
  · unfold defMethodS
    intro hm
    by_contra hc
    have hk' : ¬ (38 ≤ dv ∧ 0.3 ≤ kv) := fun h => hc h.2
    rw [if_neg hk'] at hm
    split_ifs at hm <;> omega

/-- **C110**, `calc_blended_rain` at any other band with every default. -/
theorem C110_blended_other (band : String) (hb : band ≠ "S") (ice : Bool) (d z k : NdArray XR) (hs : SameShape d z k)
    (ht : d.dtype = .float) :
    ∃ r m, calcBlendedRain Params.default band ice (some (.arr d)) (some (.arr z)) (some (.arr k)) = .ok (some (.arr r m none)) ∧
      ∀ (i : Nat) (dv kv : ℝ), d.data[i]? = some (fin dv) → k.data[i]? = some (fin kv) →
        (38 ≤ dv ∧ 0.3 ≤ kv → m.data[i]? = some 2 ∧ r.data[i]? = some (fin (40.5 * kv ^ (0.85 : ℝ)))) ∧
        (¬ (38 ≤ dv ∧ 0.3 ≤ kv) → m.data[i]? = some 4 ∧ r.data[i]? = some (fin (nexrad dv))) := by
  obtain ⟨r, m, call, -, -, -, -, h⟩ := C39_blended_other_exact (Params.default : Params XR) band hb ice d z k hs
  refine ⟨r, m, call, ?_⟩
  intro i dv kv hd hk
  obtain ⟨h1, h2⟩ := h i _ _ hd hk
  have ec : (((Params.default : Params XR).threshDz <=. fin dv) && ((Params.default : Params XR).threshKdp <=. fin kv)) =
      decide (38 ≤ dv ∧ 0.3 ≤ kv) := by
    simp [Params.default]
  rw [ht] at h2
  rw [ec] at h1 h2
  constructor
  · intro hc
    have : (0 : ℝ) < kv := by linarith [hc.2]
    rw [h1, h2]
    simp only [hc, and_self, decide_true, if_true, Params.default, fsci]
    rw [fpow this, fmul]
    simp [Common.store]
  · intro hc
    rw [h1, h2]
    simp only [hc, decide_false, Bool.false_eq_true, if_false, Params.default, rZRcap_real]
    simp [Common.store]

/-- **C110**, `csu_hidro_rain` at S band with every default. -/
theorem C110_hidro_S (d z k : NdArray XR) (c : NdArray Int) (hs : SameShape d z k) (hc : c.WF) (hcs : d.shape = c.shape)
    (ht : d.dtype = .float) :
    ∃ r m, csuHidroRain Params.default "S" (some (.arr d)) (some (.arr z)) (some (.arr k)) (some (.arr c)) =
        .ok (some (.arr r m none)) ∧
      ∀ (i : Nat) (dv zv kv : ℝ) (cv : Int), d.data[i]? = some (fin dv) → z.data[i]? = some (fin zv) →
        k.data[i]? = some (fin kv) → c.data[i]? = some cv →
        ∃ mm : Int, m.data[i]? = some mm ∧ r.data[i]? = some (fin (if mm = 0 then 0 else defRate dv zv kv mm)) ∧
          (mm = 1 ↔ (cv = 1 ∨ cv = 2 ∨ cv = 10) ∧ 38 ≤ dv ∧ 0.3 ≤ kv ∧ 0.5 ≤ zv) ∧
          (mm = 2 ↔ ((cv = 1 ∨ cv = 2 ∨ cv = 10) ∧ 38 ≤ dv ∧ 0.3 ≤ kv ∧ zv < 0.5) ∨
            ((cv = 5 ∨ cv = 7 ∨ cv = 8 ∨ cv = 9) ∧ 0.3 ≤ kv)) ∧
          (mm = 3 ↔ (cv = 1 ∨ cv = 2 ∨ cv = 10) ∧ 38 ≤ dv ∧ kv < 0.3 ∧ 0.5 ≤ zv) ∧
          (mm = 4 ↔ (cv = 1 ∨ cv = 2 ∨ cv = 10) ∧ (dv < 38 ∨ (kv < 0.3 ∧ zv < 0.5))) ∧
          (mm = 0 ↔ ¬ (cv = 1 ∨ cv = 2 ∨ cv = 10) ∧ ¬ ((cv = 5 ∨ cv = 7 ∨ cv = 8 ∨ cv = 9) ∧ 0.3 ≤ kv)) := by
  obtain ⟨r, m, call, -, -, -, -, h⟩ := C44_hidro_S_exact (Params.default : Params XR) d z k c hs hc hcs 0.9091 8.5091
  refine ⟨r, m, call, ?_⟩
  intro i dv zv kv cv hd hz hk hcv
  obtain ⟨h1, h2, h3⟩ := h i _ _ _ _ hd hz hk hcv
  rw [ht] at h3
  have hr := (C44_code_range (Params.default : Params XR) (fin dv) (fin zv) (fin kv) cv).1
  have key : ∀ mm, hidroMethodS (Params.default : Params XR) (fin dv) (fin zv) (fin kv) cv = mm →
      (mm = 1 ↔ (cv = 1 ∨ cv = 2 ∨ cv = 10) ∧ 38 ≤ dv ∧ 0.3 ≤ kv ∧ 0.5 ≤ zv) ∧
          (mm = 2 ↔ ((cv = 1 ∨ cv = 2 ∨ cv = 10) ∧ 38 ≤ dv ∧ 0.3 ≤ kv ∧ zv < 0.5) ∨
            ((cv = 5 ∨ cv = 7 ∨ cv = 8 ∨ cv = 9) ∧ 0.3 ≤ kv)) ∧
          (mm = 3 ↔ (cv = 1 ∨ cv = 2 ∨ cv = 10) ∧ 38 ≤ dv ∧ kv < 0.3 ∧ 0.5 ≤ zv) ∧
          (mm = 4 ↔ (cv = 1 ∨ cv = 2 ∨ cv = 10) ∧ (dv < 38 ∨ (kv < 0.3 ∧ zv < 0.5))) ∧
          (mm = 0 ↔ ¬ (cv = 1 ∨ cv = 2 ∨ cv = 10) ∧ ¬ ((cv = 5 ∨ cv = 7 ∨ cv = 8 ∨ cv = 9) ∧ 0.3 ≤ kv)) := by
    intro mm hmm
    rw [hidro_real] at hmm
    rw [← hmm]
    simp only [← not_le]
    exact hidro_cases (by omega)
  generalize hidroMethodS (Params.default : Params XR) (fin dv) (fin zv) (fin kv) cv = mm at h1 h2 h3 key hr
  obtain ⟨k1, k2, k3, k4, k5⟩ := key mm rfl
  refine ⟨mm, h1, ?_, k1, k2, k3, k4, k5⟩
  split_ifs with h0
  · rw [h2 h0, fzero]
  · rw [h3 h0, rate_real]
    · simp only [Common.store]
    · rcases List.mem_cons.1 hr with h | h
      · exact absurd h h0
      · exact List.mem_append_left [5] h
    · rintro (hm | hm)
      · exact (k1.1 hm).2.2.1
      · rcases k2.1 hm with h | h
        · exact h.2.2.1
        · exact h.2

/-- **C110**, `csu_hidro_rain` at any other band with every default. -/
theorem C110_hidro_other (band : String) (hb : band ≠ "S") (d z k : NdArray XR) (c : NdArray Int) (hs : SameShape d z k)
    (hc : c.WF) (hcs : d.shape = c.shape) (ht : d.dtype = .float) :
    ∃ r m, csuHidroRain Params.default band (some (.arr d)) (some (.arr z)) (some (.arr k)) (some (.arr c)) =
        .ok (some (.arr r m none)) ∧
      ∀ (i : Nat) (dv kv : ℝ) (cv : Int), d.data[i]? = some (fin dv) → k.data[i]? = some (fin kv) → c.data[i]? = some cv →
        (38 ≤ dv ∧ 0.3 ≤ kv → r.data[i]? = some (fin (40.5 * kv ^ (0.85 : ℝ)))) ∧
        (¬ (38 ≤ dv ∧ 0.3 ≤ kv) → (cv = 1 ∨ cv = 2 ∨ cv = 10) → m.data[i]? = some 4 ∧ r.data[i]? = some (fin (nexrad dv))) ∧
        (¬ (38 ≤ dv ∧ 0.3 ≤ kv) → ¬ (cv = 1 ∨ cv = 2 ∨ cv = 10) → r.data[i]? = some 0) := by
  obtain ⟨r, m, call, -, -, -, -, h⟩ := C44_hidro_other_exact (Params.default : Params XR) band hb d z k c hs hc hcs 0 0
  refine ⟨r, m, call, ?_⟩
  intro i dv kv cv hd hk hcv
  obtain ⟨h1, h2, h4, h0⟩ := h i _ _ _ hd hk hcv
  have e : hidroRuleOther (Params.default : Params XR) (fin dv) (fin kv) cv =
      if 38 ≤ dv ∧ 0.3 ≤ kv then 2 else if cv = 1 ∨ cv = 2 ∨ cv = 10 then 4 else 0 := by
    simp only [hidroRuleOther, Params.default, foflit, fsci, fle, Bool.and_eq_true, decide_eq_true_eq]
  rw [e] at h1 h2 h4 h0
  rw [ht] at h2 h4
  refine ⟨?_, ?_, ?_⟩
  · intro hh
    rw [h2 (if_pos hh)]
    have : (0 : ℝ) < kv := by linarith [hh.2]
    simp only [Common.store, Params.default, fsci]
    rw [fpow this, fmul]
  · intro hh hcc
    rw [if_neg hh, if_pos hcc] at h1 h4
    rw [h1, h4 rfl]
    refine ⟨rfl, ?_⟩
    simp only [Common.store, Params.default, rZRcap_real]
  · intro hh hcc
    rw [if_neg hh, if_neg hcc] at h0
    exact h0 rfl

/-- **C110**, `calc_blended_rain_tropical` with every default (`predef='True'`, S band, no class arrays). -/
theorem C110_tropical (d z k : NdArray XR) (hs : SameShape d z k) (ht : d.dtype = .float) :
    ∃ r m, calcBlendedRainTropical TropParams.default "True" "S" (some (.arr d)) (some (.arr z)) (some (.arr k)) none none =
        .ok (some (.arr r m none)) ∧
      ∀ (i : Nat) (dv zv kv : ℝ), d.data[i]? = some (fin dv) → z.data[i]? = some (fin zv) → k.data[i]? = some (fin kv) →
        m.data[i]? = some (defTropMethod dv zv kv) ∧
        r.data[i]? = some (fin (defTropRate dv zv kv (defTropMethod dv zv kv))) := by
  obtain ⟨r, m, call, -, -, -, -, h⟩ := C46_call_exact (TropParams.default : TropParams XR) "True" "S" d z k hs none none
    (by intro a h; cases h) (by intro a h; cases h)
  refine ⟨r, m, call, ?_⟩
  intro i dv zv kv hd hz hk
  obtain ⟨h1, h2⟩ := h i _ _ _ hd hz hk (by intro fv h; cases h)
  rw [show clsAt none i = none from rfl, show tropPredef "True" "S" (TropParams.default : TropParams XR) = TropParams.default from rfl,
    tropMethod_real] at h1 h2
  rw [ht] at h2
  refine ⟨h1, ?_⟩
  rw [h2]
  split_ifs with h0
  · rw [h0, fzero]; simp [defTropRate]
  · rw [tropRate_real]
    · rfl
    · revert h0; unfold defTropMethod; split_ifs <;> simp
    · unfold defTropMethod
      clear h1 h2 h0
      intro hm
      by_contra hc
      have hk' : ¬ (38 ≤ dv ∧ 0.3 ≤ kv) := fun h => hc h.2
      simp only [if_neg hk'] at hm
      rcases hm with hm | hm <;> split_ifs at hm <;> simp at hm

/-- **C110**: the default coefficients of the tropical retrieval are the S-band ones of `predef='True'`, so `predef` is
irrelevant when nothing else is passed at S band. -/
theorem C110_tropical_predef_irrelevant {α : Type} [PyFloat α] (predef : String) (dz zdr kdp : Option (PyVal α))
    (cs fhc : Option Cls) :
    calcBlendedRainTropical (TropParams.default : TropParams α) predef "S" dz zdr kdp cs fhc =
    calcBlendedRainTropical TropParams.default "True" "S" dz zdr kdp cs fhc := by
  have e : tropPredef predef "S" (TropParams.default : TropParams α) = TropParams.default := by
    by_cases h : predef = "True"
    · simp only [tropPredef, h, if_true]; rfl
    · simp only [tropPredef, h, if_false]
  have e' : tropPredef "True" "S" (TropParams.default : TropParams α) = TropParams.default := rfl
  have h : ∀ dt dz zdr kdp cs fhc, tropicalArr (TropParams.default : TropParams α) predef "S" dt dz zdr kdp cs fhc =
      tropicalArr TropParams.default "True" "S" dt dz zdr kdp cs fhc := by
    intros; simp only [tropicalArr, e, e']
  simp only [calcBlendedRainTropical, h]

/-- heavy rain, light rain and drizzle: all four methods of the C110 hypotheses occur -/
example : defMethodS 45 1 2 ∈ ([1, 2] : List Int) ∧ defTropMethod 45 1 2 = 1 ∧ defTropMethod 20 0 2 = 4 := by
  refine ⟨?_, ?_, ?_⟩
  · unfold defMethodS; rw [if_pos (by norm_num)]; split_ifs <;> simp
  · unfold defTropMethod; norm_num
  · unfold defTropMethod; norm_num
example : SameShape (⟨.float, [1, 2], [fin 45, fin 20]⟩ : NdArray XR) (⟨.float, [1, 2], [fin 1, fin 0]⟩ : NdArray XR)
    (⟨.float, [1, 2], [fin 2, fin 0]⟩ : NdArray XR) := by simp [SameShape, NdArray.WF]

end Csu.Rain
