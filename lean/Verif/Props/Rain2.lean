import Verif.Props.Rain
/-!
# Properties C43 - C48: number types, hydrometeor-guided and tropical rain

The per-gate specification is `Verif/Spec/Rain.lean`.
-/
namespace Csu.Rain
open Csu PyFloat Csu.RainSpec
variable {α : Type} [PyFloat α]

/-! ## C43: number type -/

/-- Full statement of C43. -/
def DtypeIndependent (α : Type) [PyFloat α] : Prop :=
  ∀ (P : Params α) (band : String) (d z k : List α),
    (blendedArr P band .int d z k).map (·.rain) = (blendedArr P band .float d z k).map (·.rain)

open XR in
/-- **C43 is false of the code**: for integer reflectivity 0 dBZ the rate 0.017 mm/h becomes 0 (default parameters,
band C). -/
theorem C43_dtype_independent_false : ¬ DtypeIndependent XR := by
  intro h
  have := h Params.default "C" [fin 0] [fin 0] [fin 0]
  rw [C40_defaults_sane.1] at this
  have e := fun dt => blendedArr_other realDefault.toXR "C" (by decide) dt (fin 0) (fin 0) [(fin 0, fin 0, fin 0)]
  simp only [List.map_cons, List.map_nil] at e
  simp only [e, Except.map, Except.ok.injEq, List.cons.injEq, and_true] at this
  have hm : methodOther realDefault.toXR (fin 0) (fin 0) = 4 := by
    simp only [methodOther, Params.toXR, realDefault, fle]; norm_num
  have hr : rate realDefault.toXR realDefault.toXR.threshNexrad (fin 0) (fin 0) (fin 0) (fin 0) (fin 0) 4 =
      fin (((10 : ℝ) ^ (min 0 53 / 10 : ℝ) / 300) ^ (1 / 1.4 : ℝ)) := by
    have : rate realDefault.toXR realDefault.toXR.threshNexrad (fin 0) (fin 0) (fin 0) (fin 0) (fin 0) 4 =
      rZRcap (fin 53) (fin 300) (fin 1.4) (fin 0) := by
        simp [rate, Params.toXR, realDefault]
    rw [this, rZRcap_fin (by norm_num) (by norm_num)]
  rw [hm, hr] at this
  have hx : (min 0 53 / 10 : ℝ) = 0 := by norm_num
  rw [hx, Real.rpow_zero] at this
  simp only [Common.store, ftrunc, fin_inj] at this
  have h0 : (0 : ℝ) < (1 / 300 : ℝ) ^ (1 / 1.4 : ℝ) := Real.rpow_pos_of_pos (by norm_num) _
  have h1 : (1 / 300 : ℝ) ^ (1 / 1.4 : ℝ) < 1 := Real.rpow_lt_one (by norm_num) (by norm_num) (by norm_num)
  have ht : truncR ((1 / 300 : ℝ) ^ (1 / 1.4 : ℝ)) = 0 := by
    simp only [truncR, h0.le, if_true]
    rw [Int.floor_eq_iff]; constructor
    · simpa using h0.le
    · simpa using h1
  rw [ht] at this
  simp at this
  rw [one_div] at h0
  linarith

/-- **C43**, what does hold: the method is dtype-independent and the integer call returns every rate of the float call
truncated toward zero. -/
theorem C43_dtype_partial (P : Params α) (fa fb : α) (hf : IsRainLine P fa fb) (band : String) (d z k : List α)
    (h1 : d.length = z.length) (h2 : d.length = k.length) :
    ∃ r m ice, BlendedIs P band .float d z k r m ice ∧ BlendedIs P band .int d z k (r.map trunc) m ice := by
  obtain ⟨gs, e1, e2, e3⟩ := exists_gates3 d z k h1 h2
  subst e1 e2 e3
  by_cases hb : band = "S"
  · subst hb
    refine ⟨_, _, _, blendedArr_S P fa fb (rainLine_of P fa fb hf) .float gs, ?_⟩
    simp only [BlendedIs, blendedArr_S P fa fb (rainLine_of P fa fb hf) .int gs, List.map_map]
    rfl
  · refine ⟨_, _, _, blendedArr_other P band hb .float fa fb gs, ?_⟩
    simp only [BlendedIs, blendedArr_other P band hb .int fa fb gs, List.map_map]
    rfl

/-! ## C44, C45: hydrometeor-guided rain -/

/-- **C44**, S band. -/
theorem C44_hidro_S_exact (P : Params α) (d z k : NdArray α) (c : NdArray Int) (hs : SameShape d z k)
    (hc : c.WF) (hcs : d.shape = c.shape) (fa fb : α) :
    ∃ r m, csuHidroRain P "S" (some (.arr d)) (some (.arr z)) (some (.arr k)) (some (.arr c)) =
        .ok (some (.arr r m none)) ∧ r.shape = d.shape ∧ m.shape = d.shape ∧ r.WF ∧ m.WF ∧
      ∀ (i : Nat) (dv zv kv : α) (cv : Int), d.data[i]? = some dv → z.data[i]? = some zv → k.data[i]? = some kv →
        c.data[i]? = some cv →
        m.data[i]? = some (hidroMethodS P dv zv kv cv) ∧
        (hidroMethodS P dv zv kv cv = 0 → r.data[i]? = some 0) ∧
        (hidroMethodS P dv zv kv cv ≠ 0 → r.data[i]? = some (Common.store d.dtype
          (rate P 53 fa fb dv zv kv (hidroMethodS P dv zv kv cv)))) := by
  obtain ⟨hl1, hl2⟩ := SameShape.lengths hs
  have hl3 : d.data.length = c.data.length := by
    have h := hs.1; rw [NdArray.WF] at h hc; rw [h, hc, hcs]
  obtain ⟨gs, h1, h2, h3, h4⟩ := exists_gates4 d.data z.data k.data c.data hl1 hl2 hl3
  have key := hidroArr_S P d.dtype gs fa fb
  rw [h1, h2, h3, h4] at key
  have hlen : gs.length = d.data.length := by rw [← h1, List.length_map]
  have hwf := hs.1
  rw [NdArray.WF] at hwf
  refine ⟨_, _, csuHidroRain_arr hs hcs key, rfl, rfl, ?_, ?_, ?_⟩
  · simp only [NdArray.WF, List.length_map, hlen, hwf]
  · simp only [NdArray.WF, List.length_map, hlen, hwf]
  intro i dv zv kv cv hd hz hk hcv
  have hg := gate_of_cols4 h1 h2 h3 h4 hd hz hk hcv
  simp only [List.getElem?_map, hg, Option.map_some]
  refine ⟨trivial, fun h => by rw [if_pos h], fun h => by rw [if_neg h]⟩

/-- **C44**, other bands: rate of `R(Kdp)` when both thresholds are reached, else `R(Z)` for rain classes, else 0; the
reported method is 4 exactly in the `R(Z)` case. -/
theorem C44_hidro_other_exact (P : Params α) (band : String) (hb : band ≠ "S") (d z k : NdArray α) (c : NdArray Int)
    (hs : SameShape d z k) (hc : c.WF) (hcs : d.shape = c.shape) (fa fb : α) :
    ∃ r m, csuHidroRain P band (some (.arr d)) (some (.arr z)) (some (.arr k)) (some (.arr c)) =
        .ok (some (.arr r m none)) ∧ r.shape = d.shape ∧ m.shape = d.shape ∧ r.WF ∧ m.WF ∧
      ∀ (i : Nat) (dv kv : α) (cv : Int), d.data[i]? = some dv → k.data[i]? = some kv → c.data[i]? = some cv →
        m.data[i]? = some (if hidroRuleOther P dv kv cv = 4 then 4 else 2) ∧
        (hidroRuleOther P dv kv cv = 2 → r.data[i]? = some (Common.store d.dtype (P.rKdpA * kv ^ P.rKdpB))) ∧
        (hidroRuleOther P dv kv cv = 4 → r.data[i]? = some (Common.store d.dtype (rZRcap 53 P.rZA P.rZB dv))) ∧
        (hidroRuleOther P dv kv cv = 0 → r.data[i]? = some 0) := by
  obtain ⟨hl1, hl2⟩ := SameShape.lengths hs
  have hl3 : d.data.length = c.data.length := by
    have h := hs.1; rw [NdArray.WF] at h hc; rw [h, hc, hcs]
  obtain ⟨gs, h1, h2, h3, h4⟩ := exists_gates4 d.data z.data k.data c.data hl1 hl2 hl3
  have key := hidroArr_other P band hb d.dtype gs fa fb
  rw [h1, h2, h3, h4] at key
  have hlen : gs.length = d.data.length := by rw [← h1, List.length_map]
  have hwf := hs.1
  rw [NdArray.WF] at hwf
  refine ⟨_, _, csuHidroRain_arr hs hcs key, rfl, rfl, ?_, ?_, ?_⟩
  · simp only [NdArray.WF, List.length_map, hlen, hwf]
  · simp only [NdArray.WF, List.length_map, hlen, hwf]
  intro i dv kv cv hd hk hcv
  obtain ⟨zv, hz⟩ : ∃ zv, z.data[i]? = some zv := by
    have : i < d.data.length := by
      by_contra hc; rw [List.getElem?_eq_none_iff.mpr (by omega)] at hd; simp at hd
    exact ⟨_, List.getElem?_eq_getElem (by omega)⟩
  have hg := gate_of_cols4 h1 h2 h3 h4 hd hz hk hcv
  simp only [List.getElem?_map, hg, Option.map_some]
  refine ⟨trivial, fun h => by simp [h, rate], fun h => by simp [h, rate], fun h => by simp [h]⟩

/-- **C44.** Codes: S band 0..4, other bands 2 or 4. -/
theorem C44_code_range (P : Params α) (d z k : α) (c : Int) :
    hidroMethodS P d z k c ∈ ([0, 1, 2, 3, 4] : List Int) ∧ hidroRuleOther P d k c ∈ ([0, 2, 4] : List Int) := by
  simp only [hidroMethodS, hidroRuleOther]
  constructor <;> split_ifs <;> simp

/-- rain with every method and an ice gate, S band -/
example : (hidroArr (α := QF) Params.default "S" .float [45, 45, 45, 20, 45, 45] [1, 0.1, 1, 1, 1, 1]
    [2, 2, 0.1, 2, 2, 2] [2, 2, 10, 1, 9, 3]).2 = [1, 2, 3, 4, 2, 0] := by decide +kernel

/-- **C45 is false of the code, universally**: `thresh_nexrad` has no effect on csu_hidro_rain whatever the arguments. -/
theorem C45_thresh_nexrad_ignored (P : Params α) (t : α) (band : String) (dz zdr kdp : Option (PyVal α))
    (fhc : Option Cls) :
    csuHidroRain { P with threshNexrad := t } band dz zdr kdp fhc = csuHidroRain P band dz zdr kdp fhc := rfl

/-- Full statement of C45: no method-4 rate exceeds R(thresh_nexrad). -/
def HidroCapHonoured : Prop :=
  ∀ (P : Params XR) (d z k : XR) (c : Int) (x y : ℝ),
    hidroArr P "C" .float [d] [z] [k] [c] = ([.fin x], [4]) →
    Common.calcRainZr P.rZA P.rZB P.threshNexrad = .fin y → x ≤ y

open XR in
/-- **C45**, witness: with thresh_nexrad = 0 dBZ, a rain gate of 50 dBZ gets R(50 dBZ). -/
theorem C45_cap_honoured_false : ¬ HidroCapHonoured := by
  intro h
  let P : Params ℝ := { realDefault with threshNexrad := 0 }
  have key := hidroArr_other P.toXR "C" (by decide) .float [(fin 50, fin 0, fin 0, 2)] (fin 0) (fin 0)
  simp only [List.map_cons, List.map_nil] at key
  have hm : hidroRuleOther P.toXR (fin 50) (fin 0) 2 = 4 := by
    simp only [hidroRuleOther, Params.toXR, realDefault, P, fle]; norm_num
  have hr : rate P.toXR 53 (fin 0) (fin 0) (fin 50) (fin 0) (fin 0) 4 =
      fin (((10 : ℝ) ^ (min 50 53 / 10 : ℝ) / 300) ^ (1 / 1.4 : ℝ)) := by
    have : rate P.toXR 53 (fin 0) (fin 0) (fin 50) (fin 0) (fin 0) 4 =
      rZRcap (fin 53) (fin 300) (fin 1.4) (fin 50) := by
        simp [rate, Params.toXR, realDefault, P]
    rw [this, rZRcap_fin (by norm_num) (by norm_num)]
  rw [hm, hr] at key
  have h2 := h P.toXR (fin 50) (fin 0) (fin 0) 2 _ _ (by rw [key]; simp [Common.store]; rfl)
    (rZR_fin (a := 300) (b := 1.4) (by norm_num) (by norm_num) 0)
  have : ((10 : ℝ) ^ (0 / 10 : ℝ) / 300) ^ (1 / 1.4 : ℝ) < ((10 : ℝ) ^ (min 50 53 / 10 : ℝ) / 300) ^ (1 / 1.4 : ℝ) := by
    apply Real.rpow_lt_rpow (by positivity) _ (by norm_num)
    apply div_lt_div_of_pos_right _ (by norm_num)
    apply Real.rpow_lt_rpow_of_exponent_lt (by norm_num)
    norm_num
  linarith

/-- **C45**, what does hold: `R(Z)` is capped at the fixed 53 dBZ (see `C44_hidro_other_exact`), so every method-4 rate
is at most R(53 dBZ). -/
theorem C45_fixed_cap_partial (a b d : ℝ) (ha : 0 < a) (hb : 0 < b) :
    ∃ x y : ℝ, rZRcap (53 : XR) (.fin a) (.fin b) (.fin d) = .fin x ∧
      rZR (.fin a) (.fin b) (53 : XR) = .fin y ∧ x ≤ y := by
  refine ⟨_, _, by rw [XR.foflit, rZRcap_fin ha hb], by rw [XR.foflit, rZR_fin ha hb], ?_⟩
  apply Real.rpow_le_rpow (div_nonneg (lin_pos _).le ha.le) _ (by positivity)
  apply div_le_div_of_nonneg_right _ ha.le
  exact Real.rpow_le_rpow_of_exponent_le (by norm_num) (by have := min_le_right d (OfNat.ofNat 53 : ℝ); linarith)

/-! ## C46 - C48: tropical rain -/

/-- **C46.** No hydrometeor field: method and rate follow the documented table, for every rain type when given. -/
theorem C46_tropical_exact (P0 : TropParams α) (predef band : String) (dt : DType) (csOn : Bool)
    (gs : List (α × α × α × Int)) :
    let P := tropPredef predef band P0
    let res := tropicalArr P0 predef band dt (gs.map (·.1)) (gs.map (·.2.1)) (gs.map (·.2.2.1))
      (if csOn then some (gs.map (·.2.2.2)) else none) none
    res.1.length = gs.length ∧ res.2.length = gs.length ∧
    ∀ (i : Nat) (d z k : α) (c : Int), gs[i]? = some (d, z, k, c) →
      let m := tropMethod P d z k (if csOn then some c else none)
      res.2[i]? = some m ∧ res.1[i]? = some (if m = -1 then 0 else Common.store dt (tropRate P d z k m)) := by
  intro P res
  have key := tropicalArr_gates P0 predef band dt csOn false (gs.map (fun g => (g.1, g.2.1, g.2.2.1, g.2.2.2, 0)))
  simp only [List.map_map, Function.comp_def, col] at key
  have hres : res = _ := key
  rw [hres]
  refine ⟨by simp, by simp, ?_⟩
  intro i d z k c hg
  simp only [List.getElem?_map, hg, Option.map_some, tropGate, Bool.false_and]
  simp only [Bool.false_eq_true, if_false]
  cases h4 : (d <. -10)
  · simp; exact ⟨rfl, rfl⟩
  · simp [tropMethod, h4]

/-- **C46.** Codes. -/
theorem C46_code_range (P : TropParams α) (d z k : α) (cs : Option Int) :
    tropMethod P d z k cs ∈ ([-1, 1, 2, 3, 4, 5, 6] : List Int) := by
  simp only [tropMethod]
  cases cs <;> dsimp only <;> split_ifs <;> simp

example : (tropicalArr (α := QF) TropParams.default "True" "S" .float [45, 45, 45, 20, 20, 20, 20, -11]
    [1, 0.1, 1, 0.1, 0.1, 0.1, 0.1, 1] [2, 2, 0.1, 2, 2, 2, 2, 2] (some [1, 1, 1, 2, 1, 3, 0, 1]) none).2 =
    [1, 2, 3, 5, 6, 4, -1, -1] := by decide +kernel

/-- Full statement of C47: at a gate of ice class 3..9 that is not (class 9 with both thresholds reached), the rain is
zero and the method -1. -/
def IceUnclassified (α : Type) [PyFloat α] : Prop :=
  ∀ (P : TropParams α) (predef band : String) (d z k : α) (f : Int), 3 ≤ f → f ≤ 9 →
    ¬ (f = 9 ∧ ((tropPredef predef band P).threshKdp <=. k) = true ∧
        ((tropPredef predef band P).threshDz <=. d) = true) →
    tropicalArr P predef band .float [d] [z] [k] none (some [f]) = ([0], [-1])

/-- **C47 is false of the code**: an ice crystal gate is reported with method 2. -/
theorem C47_ice_unclassified_false : ¬ IceUnclassified QF := by
  intro h
  have := h TropParams.default "True" "S" 20 0 0 3 (by decide) (by decide) (by decide +kernel)
  revert this; decide +kernel

/-- **C47**, what the code does: every ice gate 3..9 with `dz >= -10` (not below -10) is reported with method 2; its rain is zero, except
for hail with both thresholds reached, which gets R(Kdp).  Below -10 dBZ rain is 0 and the method -1. -/
theorem C47_ice_rain_partial (P0 : TropParams α) (predef band : String) (dt : DType) (csOn : Bool)
    (gs : List (α × α × α × Int × Int)) (i : Nat) (d z k : α) (c f : Int) (hg : gs[i]? = some (d, z, k, c, f))
    (hf1 : 3 ≤ f) (hf2 : f ≤ 9) :
    let P := tropPredef predef band P0
    let res := tropicalArr P0 predef band dt (gs.map (·.1)) (gs.map (·.2.1)) (gs.map (·.2.2.1))
      (if csOn then some (gs.map (·.2.2.2.1)) else none) (some (gs.map (·.2.2.2.2)))
    ((d <. -10) = true → res.1[i]? = some 0 ∧ res.2[i]? = some (-1)) ∧
    ((d <. -10) = false → res.2[i]? = some 2 ∧
      ((f = 9 ∧ (P.threshKdp <=. k) = true ∧ (P.threshDz <=. d) = true) →
        res.1[i]? = some (Common.store dt (P.rKdpA * k ^ P.rKdpB))) ∧
      (¬ (f = 9 ∧ (P.threshKdp <=. k) = true ∧ (P.threshDz <=. d) = true) → res.1[i]? = some 0)) := by
  intro P res
  have key := tropicalArr_gates P0 predef band dt csOn true gs
  simp only [col, if_true] at key
  have hres : res = _ := key
  rw [hres]
  have e1 : 2 < f := by omega
  have e2 : f < 10 := by omega
  simp only [List.getElem?_map, hg, Option.map_some, tropGate, e1, e2, decide_true, Bool.and_self, if_true]
  refine ⟨fun h => by simp [h], fun h => ⟨by simp [h], ?_, ?_⟩⟩
  · rintro ⟨h9, h5, h6⟩
    subst h9
    have h5' : (TropParams.threshKdp (tropPredef predef band P0) <=. k) = true := h5
    have h6' : (TropParams.threshDz (tropPredef predef band P0) <=. d) = true := h6
    simp [h, h5', h6']; rfl
  · intro hn
    have : ((f == 9) && (((tropPredef predef band P0).threshKdp <=. k) &&
        ((tropPredef predef band P0).threshDz <=. d))) = false := by
      rw [Bool.eq_false_iff]; intro hcon; apply hn
      simpa using hcon
    simp [h, this]

/-- Full statement of C48. -/
def ScalarForScalar (α : Type) [PyFloat α] : Prop :=
  ∀ (P : TropParams α) (predef band : String) (t : DType) (d z k : α),
    ∃ r m i, calcBlendedRainTropical P predef band (some (.scalar t d)) (some (.scalar t z)) (some (.scalar t k))
      none none = .ok (some (.scalar r m i))

/-- **C48 is false of the code, for every scalar call**: the result is a pair of one-element arrays. -/
theorem C48_tropical_scalar_returns_array (P : TropParams α) (predef band : String) (t t2 t3 : DType) (d z k : α) :
    ∃ r m, calcBlendedRainTropical P predef band (some (.scalar t d)) (some (.scalar t2 z)) (some (.scalar t3 k))
      none none = .ok (some (.arr ⟨t, [1], r⟩ ⟨.int, [1], m⟩ none)) := ⟨_, _, rfl⟩

/-- **C48**, negation of the full statement. -/
theorem C48_scalar_for_scalar_false : ¬ ScalarForScalar α := by
  intro h
  obtain ⟨r, m, i, h⟩ := h TropParams.default "True" "S" .float 0 0 0
  obtain ⟨r', m', h'⟩ := C48_tropical_scalar_returns_array (α := α) TropParams.default "True" "S" .float .float .float
    0 0 0
  rw [h] at h'
  simp at h'

end Csu.Rain
