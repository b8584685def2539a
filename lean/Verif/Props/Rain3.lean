import Verif.Props.Rain2
/-!
# Properties C46, C47 at the level of the call, and C98: the tropical retrieval on arrays

The coefficients of `predef='True'` are compared with the published table (`Thompson`), written out here once more,
independently of the model.
-/
namespace Csu.Rain
open Csu PyFloat Csu.RainSpec
variable {α : Type} [PyFloat α]

/-- an optional class array of the shape of the data -/
def ClsFits (d : NdArray α) (c : Option (NdArray Int)) : Prop := ∀ a, c = some a → a.WF ∧ a.shape = d.shape

/-- the entry of an optional class array at gate `i` -/
def clsAt (c : Option (NdArray Int)) (i : Nat) : Option Int := c.bind (fun a => a.data[i]?)

theorem exists_cls (d : NdArray α) (hd : d.WF) (c : Option (NdArray Int)) (h : ClsFits d c) :
    ∃ l : List Int, l.length = d.data.length ∧ (∀ a, c = some a → a.data = l) ∧ c.map (·.data) = if c.isSome then some l else none := by
  cases c with
  | none => exact ⟨d.data.map (fun _ => 0), by simp, by simp, rfl⟩
  | some a =>
    obtain ⟨h1, h2⟩ := h a rfl
    rw [NdArray.WF] at h1 hd
    exact ⟨a.data, by rw [h1, hd, h2], by rintro b ⟨⟩; rfl, rfl⟩

theorem clsAt_eq {c : Option (NdArray Int)} {l : List Int} (h : ∀ a, c = some a → a.data = l) {i : Nat} (hi : i < l.length) :
    clsAt c i = if c.isSome then some l[i] else none := by
  cases c with
  | none => rfl
  | some a => simp only [clsAt, Option.bind_some, h a rfl, Option.isSome_some, if_true, List.getElem?_eq_getElem hi]

/-- the array call is the array computation -/
theorem tropical_call (P : TropParams α) (predef band : String) (d z k : NdArray α) (hs : SameShape d z k)
    (c f : Option (NdArray Int)) (hc : ClsFits d c) (hf : ClsFits d f) :
    calcBlendedRainTropical P predef band (some (.arr d)) (some (.arr z)) (some (.arr k)) (c.map .arr) (f.map .arr) =
      .ok (some (.arr ⟨d.dtype, d.shape, (tropicalArr P predef band d.dtype d.data z.data k.data (c.map (·.data)) (f.map (·.data))).1⟩
        ⟨.int, d.shape, (tropicalArr P predef band d.dtype d.data z.data k.data (c.map (·.data)) (f.map (·.data))).2⟩ none)) := by
  have h1 := hs.2.2.2.1
  have h2 := hs.2.2.2.2
  cases c with
  | none =>
    cases f with
    | none => simp only [calcBlendedRainTropical, ← h1, ← h2, Option.map_none, and_self, if_true]
    | some f => simp only [calcBlendedRainTropical, ← h1, ← h2, Option.map_none, Option.map_some, and_self, if_true, (hf f rfl).2]
  | some c =>
    cases f with
    | none => simp only [calcBlendedRainTropical, ← h1, ← h2, Option.map_none, Option.map_some, and_self, if_true, (hc c rfl).2]
    | some f => simp only [calcBlendedRainTropical, ← h1, ← h2, Option.map_some, and_self, if_true, (hc c rfl).2, (hf f rfl).2]

/-- per gate, all cases -/
theorem tropical_gates (P0 : TropParams α) (predef band : String) (d z k : NdArray α) (hs : SameShape d z k)
    (c f : Option (NdArray Int)) (hc : ClsFits d c) (hf : ClsFits d f) :
    ∃ r m, calcBlendedRainTropical P0 predef band (some (.arr d)) (some (.arr z)) (some (.arr k)) (c.map .arr) (f.map .arr) =
        .ok (some (.arr r m none)) ∧ r.shape = d.shape ∧ m.shape = d.shape ∧ r.WF ∧ m.WF ∧ r.dtype = d.dtype ∧
      ∀ (i : Nat) (dv zv kv : α), d.data[i]? = some dv → z.data[i]? = some zv → k.data[i]? = some kv → ∃ cv fv : Int,
        clsAt c i = (if c.isSome then some cv else none) ∧ clsAt f i = (if f.isSome then some fv else none) ∧
        (r.data[i]?, m.data[i]?) =
          (some (tropGate (tropPredef predef band P0) d.dtype c.isSome f.isSome dv zv kv cv fv).1,
           some (tropGate (tropPredef predef band P0) d.dtype c.isSome f.isSome dv zv kv cv fv).2) := by
  obtain ⟨hl1, hl2⟩ := SameShape.lengths hs
  obtain ⟨lc, hc1, hc2, hc3⟩ := exists_cls d hs.1 c hc
  obtain ⟨lf, hf1, hf2, hf3⟩ := exists_cls d hs.1 f hf
  have call := tropical_call P0 predef band d z k hs c f hc hf
  obtain ⟨gs, e1, e2, e3, e4⟩ := exists_gates4 d.data z.data k.data (List.zip lc lf) hl1 hl2 (by simp [hc1, hf1])
  have e5 : gs.map (·.2.2.2.1) = lc := by
    have : (gs.map (·.2.2.2)).map (·.1) = lc := by rw [e4, List.map_fst_zip (by omega)]
    simpa [List.map_map, Function.comp_def] using this
  have e6 : gs.map (·.2.2.2.2) = lf := by
    have : (gs.map (·.2.2.2)).map (·.2) = lf := by rw [e4, List.map_snd_zip (by omega)]
    simpa [List.map_map, Function.comp_def] using this
  have key := tropicalArr_gates P0 predef band d.dtype c.isSome f.isSome gs
  simp only [col, e5, e6, e1, e2, e3, ← hc3, ← hf3] at key
  rw [key] at call
  have hlen : gs.length = d.data.length := by rw [← e1, List.length_map]
  have hwf := hs.1
  rw [NdArray.WF] at hwf
  refine ⟨_, _, call, rfl, rfl, ?_, ?_, rfl, ?_⟩
  · simp only [NdArray.WF, List.length_map, hlen, hwf]
  · simp only [NdArray.WF, List.length_map, hlen, hwf]
  · intro i dv zv kv h1 h2 h3
    have hi : i < d.data.length := by
      by_contra hn; rw [List.getElem?_eq_none_iff.mpr (by omega)] at h1; cases h1
    have h4 : (List.zip lc lf)[i]? = some (lc[i]'(by omega), lf[i]'(by omega)) := by
      rw [List.getElem?_eq_getElem (by simp; omega), List.getElem_zip]
    have hg := gate_of_cols4 e1 e2 e3 e4 h1 h2 h3 h4
    refine ⟨lc[i]'(by omega), lf[i]'(by omega), clsAt_eq hc2 (by omega), clsAt_eq hf2 (by omega), ?_⟩
    simp only [List.getElem?_map, hg, Option.map_some]

/-- **C46, the call.** With arrays of one shape (any number of dimensions), optionally a rain type, and no hydrometeor
classes or a class outside 3..9 at the gate, method and rate of every gate follow the documented table. -/
theorem C46_call_exact (P0 : TropParams α) (predef band : String) (d z k : NdArray α) (hs : SameShape d z k)
    (c f : Option (NdArray Int)) (hc : ClsFits d c) (hf : ClsFits d f) :
    let P := tropPredef predef band P0
    ∃ r m, calcBlendedRainTropical P0 predef band (some (.arr d)) (some (.arr z)) (some (.arr k)) (c.map .arr) (f.map .arr) =
        .ok (some (.arr r m none)) ∧ r.shape = d.shape ∧ m.shape = d.shape ∧ r.WF ∧ m.WF ∧
      ∀ (i : Nat) (dv zv kv : α), d.data[i]? = some dv → z.data[i]? = some zv → k.data[i]? = some kv →
        (∀ fv, clsAt f i = some fv → fv < 3 ∨ 9 < fv) →
        m.data[i]? = some (tropMethod P dv zv kv (clsAt c i)) ∧
        r.data[i]? = some (if tropMethod P dv zv kv (clsAt c i) = -1 then 0
          else Common.store d.dtype (tropRate P dv zv kv (tropMethod P dv zv kv (clsAt c i)))) := by
  intro P
  obtain ⟨r, m, e, h1, h2, h3, h4, -, h5⟩ := tropical_gates P0 predef band d z k hs c f hc hf
  refine ⟨r, m, e, h1, h2, h3, h4, ?_⟩
  intro i dv zv kv hd hz hk hice
  obtain ⟨cv, fv, ec, ef, h6⟩ := h5 i dv zv kv hd hz hk
  rw [Prod.mk.injEq] at h6
  rw [h6.1, h6.2, ec]
  have hno : (f.isSome && (decide (2 < fv) && decide (fv < 10))) = false := by
    cases hf' : f.isSome with
    | false => rfl
    | true =>
      rw [hf'] at ef
      have := hice fv ef
      have h : ¬ (2 < fv ∧ fv < 10) := by omega
      simp only [Bool.true_and, ← Bool.decide_and, decide_eq_false_iff_not]; exact h
  simp only [tropGate, hno]
  cases h10 : (dv <. -10)
  · exact ⟨rfl, rfl⟩
  · simp [tropMethod, h10]

/-- **C47, the call, what holds**: a gate of ice class 3..9. -/
theorem C47_call_partial (P0 : TropParams α) (predef band : String) (d z k : NdArray α) (hs : SameShape d z k)
    (c f : Option (NdArray Int)) (hc : ClsFits d c) (hf : ClsFits d f) :
    let P := tropPredef predef band P0
    ∃ r m, calcBlendedRainTropical P0 predef band (some (.arr d)) (some (.arr z)) (some (.arr k)) (c.map .arr) (f.map .arr) =
        .ok (some (.arr r m none)) ∧
      ∀ (i : Nat) (dv zv kv : α) (fv : Int), d.data[i]? = some dv → z.data[i]? = some zv → k.data[i]? = some kv →
        clsAt f i = some fv → 3 ≤ fv → fv ≤ 9 →
        ((dv <. -10) = true → r.data[i]? = some 0 ∧ m.data[i]? = some (-1)) ∧
        ((dv <. -10) = false → m.data[i]? = some 2 ∧ r.data[i]? = some
          (if fv = 9 ∧ (P.threshKdp <=. kv) = true ∧ (P.threshDz <=. dv) = true then Common.store d.dtype (P.rKdpA * kv ^ P.rKdpB) else 0)) := by
  intro P
  obtain ⟨r, m, e, -, -, -, -, -, h5⟩ := tropical_gates P0 predef band d z k hs c f hc hf
  refine ⟨r, m, e, ?_⟩
  intro i dv zv kv fv hd hz hk hfv h3 h9
  obtain ⟨cv, fv', -, ef, h6⟩ := h5 i dv zv kv hd hz hk
  rw [Prod.mk.injEq] at h6
  rw [hfv] at ef
  cases hf' : f.isSome with
  | false => rw [hf'] at ef; cases ef
  | true =>
    rw [hf'] at ef
    cases ef
    rw [h6.1, h6.2, hf']
    have e1 : 2 < fv := by omega
    have e2 : fv < 10 := by omega
    simp only [tropGate, e1, e2, decide_true, Bool.and_self, if_true]
    refine ⟨fun h => by simp [h], fun h => ?_⟩
    simp only [h, Bool.false_eq_true, if_false, true_and]
    congr 1
    by_cases hcond : fv = 9 ∧ (P.threshKdp <=. kv) = true ∧ (P.threshDz <=. dv) = true
    · have : ((fv == 9) && ((tropPredef predef band P0).threshKdp <=. kv) && ((tropPredef predef band P0).threshDz <=. dv)) = true := by
        simp only [Bool.and_eq_true, beq_iff_eq, and_assoc]; exact hcond
      rw [Bool.and_assoc] at this
      rw [if_pos hcond, if_pos this]
    · rw [if_neg hcond, if_neg]
      intro hh
      apply hcond
      simpa only [Bool.and_eq_true, beq_iff_eq, and_assoc] using hh

/-! ## The published coefficients -/

/-- Thompson et al. (2016), the nine coefficients that depend on the radar band:
R = a Kdp^b zeta^c, R = a Z^b zeta^c, R = a Kdp^b; the exponents `c` are for the linear ratio, a tenth of them for dB. -/
structure Published where
  kdpZdr : Rat × Rat × Rat
  zZdr : Rat × Rat × Rat
  kdp : Rat × Rat

/-- the three bands of the paper -/
inductive Published.Of : String → Published → Prop
  | S : Of "S" ⟨(96.5726, 0.9315, -2.1140), (0.0085, 0.9237, -5.2389), (59.5202, 0.7451)⟩
  | C : Of "C" ⟨(45.6976, 0.8763, -1.6718), (0.0086, 0.9088, -4.2059), (34.5703, 0.7331)⟩
  | X : Of "X" ⟨(28.1289, 0.9194, -1.6876), (0.0085, 0.9294, -4.4580), (21.9729, 0.7221)⟩

section numeric
open XR
/-- the real number of a published coefficient -/
noncomputable def rl (q : Rat) : ℝ := (q : ℝ)

/-- **C98.** With `predef='True'` at S, C or X band the rate of each method is the published relation, whatever coefficients
the caller passes; the reflectivity-only relations are Z = 126 R^1.39 (convective), 291 R^1.55 (stratiform), 216 R^1.39 (all). -/
theorem C98_published_rates (band : String) (T : Published) (hT : Published.Of band T) (P0 : TropParams XR) (d z k : ℝ) (hk : 0 < k) :
    let P := tropPredef "True" band P0
    let Z : ℝ := 10 ^ (d / 10)
    let zeta : ℝ := 10 ^ (z / 10)
    tropRate P (.fin d) (.fin z) (.fin k) 1 = .fin (rl T.kdpZdr.1 * k ^ rl T.kdpZdr.2.1 * zeta ^ rl T.kdpZdr.2.2) ∧
    tropRate P (.fin d) (.fin z) (.fin k) 2 = .fin (rl T.kdp.1 * k ^ rl T.kdp.2) ∧
    tropRate P (.fin d) (.fin z) (.fin k) 3 = .fin (rl T.zZdr.1 * Z ^ rl T.zZdr.2.1 * zeta ^ rl T.zZdr.2.2) ∧
    tropRate P (.fin d) (.fin z) (.fin k) 4 = .fin ((Z / 216) ^ (1 / 1.39 : ℝ)) ∧
    tropRate P (.fin d) (.fin z) (.fin k) 5 = .fin ((Z / 126) ^ (1 / 1.39 : ℝ)) ∧
    tropRate P (.fin d) (.fin z) (.fin k) 6 = .fin ((Z / 291) ^ (1 / 1.55 : ℝ)) ∧
    P.threshDz = P0.threshDz ∧ P.threshZdr = P0.threshZdr ∧ P.threshKdp = P0.threshKdp := by
  intro P Z zeta
  have hZ : (0 : ℝ) < Z := lin_pos d
  have h10 : ∀ c y : ℝ, (fin 10 ^ (-fin c / fin 10 * fin y)) = fin ((10 : ℝ) ^ (-c / 10 * y)) := by
    intro c y; rw [fneg, fdiv (by norm_num), fmul, fpow (by norm_num)]
  have hz : ∀ c : ℝ, zeta ^ c = (10 : ℝ) ^ (c / 10 * z) := by
    intro c
    show ((10 : ℝ) ^ (z / 10)) ^ c = _
    rw [← Real.rpow_mul (by norm_num)]
    congr 1; ring
  rw [hz, hz]
  cases hT
  all_goals
    simp only [P, tropPredef, tropRate, if_true, reduceCtorEq, String.reduceEq, if_false, Int.reduceEq, fsci, foflit, h10, lin_fin]
    refine ⟨?_, ?_, ?_, ?_, ?_, ?_, trivial, trivial, trivial⟩
    · rw [fpow hk, fmul, fmul]; congr 1; norm_num [rl]
    · rw [fpow hk, fmul]; norm_num [rl]
    · rw [fpow hZ, fmul, fmul]; congr 1; norm_num [rl]
    · rw [rZR_fin (by norm_num) (by norm_num)]
    · rw [rZR_fin (by norm_num) (by norm_num)]
    · rw [rZR_fin (by norm_num) (by norm_num)]

/-- coefficients for which every relation is defined and nonnegative -/
structure TropSane (P : TropParams XR) : Prop where
  kdp : ∃ t : ℝ, 0 < t ∧ P.threshKdp = fin t
  z : ∃ a b : ℝ, 0 < a ∧ 0 < b ∧ P.rZA = fin a ∧ P.rZB = fin b
  zc : ∃ a b : ℝ, 0 < a ∧ 0 < b ∧ P.rZAc = fin a ∧ P.rZBc = fin b
  zs : ∃ a b : ℝ, 0 < a ∧ 0 < b ∧ P.rZAs = fin a ∧ P.rZBs = fin b
  k : ∃ a b : ℝ, 0 ≤ a ∧ P.rKdpA = fin a ∧ P.rKdpB = fin b
  kz : ∃ a b c : ℝ, 0 ≤ a ∧ P.rKdpZdrA = fin a ∧ P.rKdpZdrB = fin b ∧ P.rKdpZdrC = fin c
  zz : ∃ a b c : ℝ, 0 ≤ a ∧ P.rZZdrA = fin a ∧ P.rZZdrB = fin b ∧ P.rZZdrC = fin c

theorem tropRate_fin (P : TropParams XR) (hP : TropSane P) (d z : ℝ) (k : XR) (m : Int)
    (hk : m = 1 ∨ m = 2 → ∃ r : ℝ, 0 < r ∧ k = fin r) : ∃ v : ℝ, 0 ≤ v ∧ tropRate P (fin d) (fin z) k m = fin v := by
  have h10 : ∀ c y : ℝ, ((10 : XR) ^ (fin c * fin y)) = fin ((10 : ℝ) ^ (c * y)) := by
    intro c y; simp only [foflit, fmul]; rw [fpow (by norm_num)]
  have hpos : ∀ c : ℝ, (0 : ℝ) ≤ 10 ^ c := fun c => (Real.rpow_pos_of_pos (by norm_num) _).le
  obtain ⟨a1, b1, ha1, hb1, e1, e1'⟩ := hP.z
  obtain ⟨a2, b2, ha2, hb2, e2, e2'⟩ := hP.zc
  obtain ⟨a3, b3, ha3, hb3, e3, e3'⟩ := hP.zs
  obtain ⟨a4, b4, ha4, e4, e4'⟩ := hP.k
  obtain ⟨a5, b5, c5, ha5, e5, e5', e5''⟩ := hP.kz
  obtain ⟨a6, b6, c6, ha6, e6, e6', e6''⟩ := hP.zz
  have hzr : ∀ a b : ℝ, 0 < a → 0 < b → ∃ v : ℝ, 0 ≤ v ∧ rZR (fin a) (fin b) (fin d) = fin v := fun a b ha hb =>
    ⟨_, Real.rpow_nonneg (div_nonneg (lin_pos _).le ha.le) _, rZR_fin ha hb d⟩
  simp only [tropRate, e1, e1', e2, e2', e3, e3', e4, e4', e5, e5', e5'', e6, e6', e6'']
  split_ifs with h1 h2 h3 h4 h5 h6
  · obtain ⟨r, hr, rfl⟩ := hk (.inl h1)
    rw [h10, fpow hr]
    exact ⟨_, mul_nonneg (mul_nonneg ha5 (Real.rpow_nonneg hr.le _)) (hpos _), rfl⟩
  · obtain ⟨r, hr, rfl⟩ := hk (.inr h2)
    rw [fpow hr]
    exact ⟨_, mul_nonneg ha4 (Real.rpow_nonneg hr.le _), rfl⟩
  · rw [h10, lin_fin, fpow (lin_pos d)]
    exact ⟨_, mul_nonneg (mul_nonneg ha6 (Real.rpow_nonneg (lin_pos d).le _)) (hpos _), rfl⟩
  · exact hzr _ _ ha1 hb1
  · exact hzr _ _ ha2 hb2
  · exact hzr _ _ ha3 hb3
  · exact ⟨0, le_refl _, by simp⟩

/-- **C99.** Tropical rain rates are finite and nonnegative for finite reflectivity and differential reflectivity and any finite or NaN Kdp,
with or without rain types and hydrometeor classes, for float and integer arrays. -/
theorem C99_tropical_finite_nonneg (P0 : TropParams XR) (predef band : String) (hP : TropSane (tropPredef predef band P0))
    (d z k : NdArray XR) (hs : SameShape d z k) (c f : Option (NdArray Int)) (hc : ClsFits d c) (hf : ClsFits d f)
    (hd : ∀ x ∈ d.data, ∃ r : ℝ, x = fin r) (hz : ∀ x ∈ z.data, ∃ r : ℝ, x = fin r)
    (hk : ∀ x ∈ k.data, x = XR.nan ∨ ∃ r : ℝ, x = fin r) :
    ∃ r m, calcBlendedRainTropical P0 predef band (some (.arr d)) (some (.arr z)) (some (.arr k)) (c.map .arr) (f.map .arr) =
        .ok (some (.arr r m none)) ∧ r.shape = d.shape ∧ ∀ x ∈ r.data, ∃ v : ℝ, 0 ≤ v ∧ x = fin v := by
  obtain ⟨hl1, hl2⟩ := SameShape.lengths hs
  obtain ⟨r, m, e, h1, -, h3, -, -, h5⟩ := tropical_gates P0 predef band d z k hs c f hc hf
  refine ⟨r, m, e, h1, ?_⟩
  intro x hx
  obtain ⟨i, hi⟩ := List.mem_iff_getElem?.mp hx
  have hlen : r.data.length = d.data.length := by
    have := hs.1; rw [NdArray.WF] at h3 this; rw [h3, this, h1]
  have hil : i < r.data.length := by
    by_contra hc; rw [List.getElem?_eq_none_iff.mpr (by omega)] at hi; simp at hi
  have g1 : d.data[i]? = some (d.data[i]'(by omega)) := List.getElem?_eq_getElem (by omega)
  have g2 : z.data[i]? = some (z.data[i]'(by omega)) := List.getElem?_eq_getElem (by omega)
  have g3 : k.data[i]? = some (k.data[i]'(by omega)) := List.getElem?_eq_getElem (by omega)
  obtain ⟨cv, fv, -, -, h6⟩ := h5 i _ _ _ g1 g2 g3
  obtain ⟨dr, ed⟩ := hd _ (List.mem_of_getElem? g1)
  obtain ⟨zr, ez⟩ := hz _ (List.mem_of_getElem? g2)
  have hkk := hk _ (List.mem_of_getElem? g3)
  generalize k.data[i]'(by omega) = kv at h6 hkk
  rw [Prod.mk.injEq, hi] at h6
  rw [Option.some.inj h6.1, ed, ez]
  obtain ⟨t, ht, et⟩ := hP.kdp
  generalize tropPredef predef band P0 = P at *
  have hst : ∀ y : XR, (∃ v : ℝ, 0 ≤ v ∧ y = fin v) → ∃ v : ℝ, 0 ≤ v ∧ Common.store d.dtype y = fin v := by
    rintro y ⟨v, hv, rfl⟩; exact store_fin d.dtype hv
  have h0 : ∃ v : ℝ, 0 ≤ v ∧ (0 : XR) = fin v := ⟨0, le_refl _, by simp⟩
  simp only [tropGate]
  split
  · exact h0
  split
  · split
    · rename_i hcond
      rw [Bool.and_eq_true, Bool.and_eq_true] at hcond
      apply hst
      exact tropRate_fin P hP dr zr kv 2 (fun _ => kdp_big ht hkk (by rw [← et]; exact hcond.2.1))
    · exact h0
  · generalize (if c.isSome = true then some cv else none) = cc
    dsimp only
    split
    · exact h0
    · apply hst
      apply tropRate_fin P hP
      intro hm
      apply kdp_big ht hkk
      by_contra hcon
      have hc2 : (P.threshKdp <=. kv) = false := by rw [et]; simpa using hcon
      simp only [tropMethod, hc2, Bool.and_false] at hm
      revert hm
      cases cc <;> dsimp only <;> split_ifs <;> simp_all

/-- the published coefficients are sane at every band, whatever the caller's (band S, C or X), and so are the defaults -/
theorem C99_published_sane (band : String) (P0 : TropParams XR) (hb : band = "S" ∨ band = "C" ∨ band = "X")
    (ht : ∃ t : ℝ, 0 < t ∧ P0.threshKdp = fin t) : TropSane (tropPredef "True" band P0) := by
  have hneg : ∀ c : ℝ, -fin c / fin 10 = fin (-c / 10) := by intro c; rw [fneg, fdiv (by norm_num)]
  rcases hb with rfl | rfl | rfl <;>
  · constructor
    all_goals simp only [tropPredef, if_true, String.reduceEq, if_false, fsci, foflit, hneg]
    · exact ht
    · exact ⟨_, _, by norm_num, by norm_num, rfl, rfl⟩
    · exact ⟨_, _, by norm_num, by norm_num, rfl, rfl⟩
    · exact ⟨_, _, by norm_num, by norm_num, rfl, rfl⟩
    · exact ⟨_, _, by norm_num, rfl, rfl⟩
    · exact ⟨_, _, _, by norm_num, rfl, rfl, rfl⟩
    · exact ⟨_, _, _, by norm_num, rfl, rfl, rfl⟩

/-- a 2-D array with a NaN and a negative Kdp, rain types and classes meets the hypotheses -/
example : SameShape (⟨.float, [1, 2], [fin 45, fin 20]⟩ : NdArray XR) (⟨.float, [1, 2], [fin 1, fin (-1)]⟩ : NdArray XR)
    (⟨.float, [1, 2], [fin (-1), XR.nan]⟩ : NdArray XR) ∧
    ClsFits (⟨.float, [1, 2], [fin 45, fin 20]⟩ : NdArray XR) (some ⟨.int, [1, 2], [1, 2]⟩) ∧
    TropSane (tropPredef "True" "C" TropParams.default) := by
  refine ⟨⟨rfl, rfl, rfl, rfl, rfl⟩, by rintro a ⟨⟩; exact ⟨rfl, rfl⟩, C99_published_sane _ _ (by simp) ⟨0.3, by norm_num, ?_⟩⟩
  simp [TropParams.default]
end numeric

end Csu.Rain
