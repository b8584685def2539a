import Verif.Props.Fhc2
import Verif.Props.Rain4
import Verif.Props.RainDefaults
/-!
# Properties C133, C134: the usual processing chain

C133: measurements are classified with `csu_fhc_summer` and the classes are handed to a class-guided rain retrieval.
C134: gates whose polarimetric fields are missing (flagged or NaN) in the blended retrievals.
-/
namespace Csu.Rain
open Csu PyFloat Csu.RainSpec Csu.Fhc Tables FhcSpec

section
variable {α : Type} [PyFloat α]

/-- the class array that `csu_fhc_summer` returns, as it is handed to the rain retrievals -/
def classArray (shape : List Nat) (cats : List Nat) : NdArray Int := ⟨.int, shape, cats.map Int.ofNat⟩

/-- species of the summer classifier that are liquid: drizzle, rain, big drops -/
def LiquidSpecies (v : Nat) : Prop := v = 1 ∨ v = 2 ∨ v = 10
/-- species that may melt into rain: wet snow, low-density graupel, high-density graupel, hail -/
def MixedSpecies (v : Nat) : Prop := v = 5 ∨ v = 7 ∨ v = 8 ∨ v = 9
/-- species that are certainly ice: ice crystals, aggregates, vertical ice -/
def FrozenSpecies (v : Nat) : Prop := v = 3 ∨ v = 4 ∨ v = 6

/-- **C133**, S band: whatever was classified (any fields, weights, band of the classifier, NaN gates), if the classifier returned classes and the rain
retrieval gets fields of one shape and the reflectivity that was classified, the rain call succeeds; every gate's class is liquid, mixed or frozen; liquid
gates always get a rain relation (methods 1 to 4), mixed gates R(Kdp) exactly when Kdp reaches its threshold and else no rain, frozen gates no rain. -/
theorem C133_classified_rain_S (A : SummerArgs α) (I : Inputs α) (shape cats : List Nat) (hI : csuFhcSummer A I = .ok (some (.hid shape cats)))
    (P : Params α) (d z k : NdArray α) (hs : SameShape d z k) (hd : I.dz = some d) :
    ∃ r m, csuHidroRain P "S" (some (.arr d)) (some (.arr z)) (some (.arr k)) (some (.arr (classArray shape cats))) = .ok (some (.arr r m none)) ∧
      r.shape = d.shape ∧ m.shape = d.shape ∧
      ∀ (i : Nat) (dv zv kv : α), d.data[i]? = some dv → z.data[i]? = some zv → k.data[i]? = some kv → ∃ v mm rr, cats[i]? = some v ∧
        m.data[i]? = some mm ∧ r.data[i]? = some rr ∧
        (LiquidSpecies v ∨ MixedSpecies v ∨ FrozenSpecies v) ∧
        (LiquidSpecies v → mm ∈ ([1, 2, 3, 4] : List Int)) ∧
        (MixedSpecies v → ((P.threshKdp <=. kv) = true → mm = 2 ∧ rr = Common.store d.dtype (P.rKdpA * kv ^ P.rKdpB)) ∧
          ((P.threshKdp <=. kv) = false → mm = 0 ∧ rr = 0)) ∧
        (FrozenSpecies v → mm = 0 ∧ rr = 0) := by
  obtain ⟨dz, e1, e2, e3, e4⟩ := C21_category_range A I shape cats hI
  rw [hd] at e1; cases e1
  have hwf := hs.1
  rw [NdArray.WF] at hwf
  have hc : (classArray shape cats).WF := by rw [NdArray.WF]; simp only [classArray, List.length_map, e3, hwf, e2]
  obtain ⟨r, m, call, h1, h2, -, -, h5⟩ := C44_hidro_S_exact P d z k (classArray shape cats) hs hc (by simp only [classArray, e2]) 0 0
  refine ⟨r, m, call, h1, h2, ?_⟩
  intro i dv zv kv gd gz gk
  have hi : i < cats.length := by
    rw [e3]; by_contra hc; rw [List.getElem?_eq_none (by omega)] at gd; cases gd
  have hcv : (classArray shape cats).data[i]? = some (cats[i] : Int) := by
    simp only [classArray, List.getElem?_map, List.getElem?_eq_getElem hi, Option.map_some]; rfl
  obtain ⟨g1, g2, g3⟩ := h5 i dv zv kv _ gd gz gk hcv
  have hv := e4 cats[i] (List.getElem_mem hi)
  have hval : ∃ rr, r.data[i]? = some rr := by
    by_cases h0 : hidroMethodS P dv zv kv (cats[i] : Int) = 0
    · exact ⟨_, g2 h0⟩
    · exact ⟨_, g3 h0⟩
  obtain ⟨rr, hrr⟩ := hval
  refine ⟨cats[i], _, rr, List.getElem?_eq_getElem hi, g1, hrr, ?_, ?_, ?_, ?_⟩
  · unfold LiquidSpecies MixedSpecies FrozenSpecies; omega
  · intro hl
    have : (cats[i] : Int) = 1 ∨ (cats[i] : Int) = 2 ∨ (cats[i] : Int) = 10 := by unfold LiquidSpecies at hl; omega
    unfold hidroMethodS
    rw [if_pos this]
    split_ifs <;> simp
  · intro hm
    have hn : ¬ ((cats[i] : Int) = 1 ∨ (cats[i] : Int) = 2 ∨ (cats[i] : Int) = 10) := by unfold MixedSpecies at hm; omega
    have hy : (cats[i] : Int) = 5 ∨ (cats[i] : Int) = 7 ∨ (cats[i] : Int) = 8 ∨ (cats[i] : Int) = 9 := by unfold MixedSpecies at hm; omega
    constructor
    · intro hk
      have e : hidroMethodS P dv zv kv (cats[i] : Int) = 2 := by
        unfold hidroMethodS; rw [if_neg hn, if_pos ⟨hy, hk⟩]
      refine ⟨e, ?_⟩
      have := g3 (by rw [e]; decide)
      rw [hrr, e] at this
      simpa [rate] using this
    · intro hk
      have e : hidroMethodS P dv zv kv (cats[i] : Int) = 0 := by
        unfold hidroMethodS; rw [if_neg hn, if_neg (by rintro ⟨-, h⟩; rw [hk] at h; cases h)]
      refine ⟨e, ?_⟩
      have := g2 e
      rw [hrr] at this
      simpa using this
  · intro hf
    have e : hidroMethodS P dv zv kv (cats[i] : Int) = 0 := by
      unfold FrozenSpecies at hf
      unfold hidroMethodS
      rw [if_neg (by omega), if_neg (by rintro ⟨h, -⟩; omega)]
    refine ⟨e, ?_⟩
    have := g2 e
    rw [hrr] at this
    simpa using this

/-- **C133**, any other band: R(Kdp) wherever both thresholds are reached, whatever the class; elsewhere liquid gates get R(Z), all others no rain. -/
theorem C133_classified_rain_other (A : SummerArgs α) (I : Inputs α) (shape cats : List Nat) (hI : csuFhcSummer A I = .ok (some (.hid shape cats)))
    (P : Params α) (band : String) (hb : band ≠ "S") (d z k : NdArray α) (hs : SameShape d z k) (hd : I.dz = some d) :
    ∃ r m, csuHidroRain P band (some (.arr d)) (some (.arr z)) (some (.arr k)) (some (.arr (classArray shape cats))) = .ok (some (.arr r m none)) ∧
      r.shape = d.shape ∧ m.shape = d.shape ∧
      ∀ (i : Nat) (dv kv : α), d.data[i]? = some dv → k.data[i]? = some kv → ∃ v, cats[i]? = some v ∧
        (LiquidSpecies v ∨ MixedSpecies v ∨ FrozenSpecies v) ∧
        (((P.threshDz <=. dv) && (P.threshKdp <=. kv)) = true →
          m.data[i]? = some 2 ∧ r.data[i]? = some (Common.store d.dtype (P.rKdpA * kv ^ P.rKdpB))) ∧
        (((P.threshDz <=. dv) && (P.threshKdp <=. kv)) = false →
          (LiquidSpecies v → m.data[i]? = some 4 ∧ r.data[i]? = some (Common.store d.dtype (rZRcap 53 P.rZA P.rZB dv))) ∧
          (¬ LiquidSpecies v → m.data[i]? = some 2 ∧ r.data[i]? = some 0)) := by
  obtain ⟨dz, e1, e2, e3, e4⟩ := C21_category_range A I shape cats hI
  rw [hd] at e1; cases e1
  have hwf := hs.1
  rw [NdArray.WF] at hwf
  have hc : (classArray shape cats).WF := by rw [NdArray.WF]; simp only [classArray, List.length_map, e3, hwf, e2]
  obtain ⟨r, m, call, h1, h2, -, -, h5⟩ := C44_hidro_other_exact P band hb d z k (classArray shape cats) hs hc (by simp only [classArray, e2]) 0 0
  refine ⟨r, m, call, h1, h2, ?_⟩
  intro i dv kv gd gk
  have hi : i < cats.length := by
    rw [e3]; by_contra hc; rw [List.getElem?_eq_none (by omega)] at gd; cases gd
  have hcv : (classArray shape cats).data[i]? = some (cats[i] : Int) := by
    simp only [classArray, List.getElem?_map, List.getElem?_eq_getElem hi, Option.map_some]; rfl
  obtain ⟨g1, g2, g3, g4⟩ := h5 i dv kv _ gd gk hcv
  have hv := e4 cats[i] (List.getElem_mem hi)
  have hl : LiquidSpecies cats[i] ↔ ((cats[i] : Int) = 1 ∨ (cats[i] : Int) = 2 ∨ (cats[i] : Int) = 10) := by unfold LiquidSpecies; omega
  refine ⟨cats[i], List.getElem?_eq_getElem hi, by unfold LiquidSpecies MixedSpecies FrozenSpecies; omega, ?_, ?_⟩
  · intro h
    have e : hidroRuleOther P dv kv (cats[i] : Int) = 2 := by unfold hidroRuleOther; rw [if_pos h]
    rw [e] at g1
    exact ⟨g1, g2 e⟩
  · intro h
    have hn : ¬ ((P.threshDz <=. dv) && (P.threshKdp <=. kv)) = true := by rw [h]; decide
    constructor
    · intro hq
      have e : hidroRuleOther P dv kv (cats[i] : Int) = 4 := by unfold hidroRuleOther; rw [if_neg hn, if_pos (hl.mp hq)]
      rw [e] at g1
      exact ⟨g1, g3 e⟩
    · intro hq
      have e : hidroRuleOther P dv kv (cats[i] : Int) = 0 := by unfold hidroRuleOther; rw [if_neg hn, if_neg (fun h => hq (hl.mpr h))]
      rw [e] at g1
      exact ⟨g1, g4 e⟩

/-- **C133**, tropical retrieval: a gate above -10 dBZ whose class is mixed or frozen never gets a Zdr or Z relation: its method is 2, and its rate is not 0
only for hail (class 9) with both thresholds reached. -/
theorem C133_classified_rain_tropical (A : SummerArgs α) (I : Inputs α) (shape cats : List Nat) (hI : csuFhcSummer A I = .ok (some (.hid shape cats)))
    (P0 : TropParams α) (predef band : String) (d z k : NdArray α) (hs : SameShape d z k) (c : Option (NdArray Int)) (hc : ClsFits d c)
    (hd : I.dz = some d) :
    let P := tropPredef predef band P0
    ∃ r m, calcBlendedRainTropical P0 predef band (some (.arr d)) (some (.arr z)) (some (.arr k)) (c.map .arr) (some (.arr (classArray shape cats))) =
        .ok (some (.arr r m none)) ∧ r.shape = d.shape ∧ m.shape = d.shape ∧
      ∀ (i : Nat) (dv zv kv : α), d.data[i]? = some dv → z.data[i]? = some zv → k.data[i]? = some kv → ∃ v, cats[i]? = some v ∧
        (LiquidSpecies v ∨ MixedSpecies v ∨ FrozenSpecies v) ∧
        (LiquidSpecies v → m.data[i]? = some (tropMethod P dv zv kv (clsAt c i))) ∧
        (¬ LiquidSpecies v → (dv <. -10) = false → m.data[i]? = some 2 ∧
          (v = 9 → (P.threshKdp <=. kv) = true → (P.threshDz <=. dv) = true → r.data[i]? = some (Common.store d.dtype (P.rKdpA * kv ^ P.rKdpB))) ∧
          (¬ (v = 9 ∧ (P.threshKdp <=. kv) = true ∧ (P.threshDz <=. dv) = true) → r.data[i]? = some 0)) := by
  intro P
  obtain ⟨dz, e1, e2, e3, e4⟩ := C21_category_range A I shape cats hI
  rw [hd] at e1; cases e1
  have hwf := hs.1
  rw [NdArray.WF] at hwf
  have hf : ClsFits d (some (classArray shape cats)) := by
    rintro a ⟨⟩
    exact ⟨by rw [NdArray.WF]; simp only [classArray, List.length_map, e3, hwf, e2], by simp only [classArray, e2]⟩
  obtain ⟨r, m, call, h1, h2, -, -, h5⟩ := C46_call_exact P0 predef band d z k hs c (some (classArray shape cats)) hc hf
  obtain ⟨r', m', call', h6⟩ := C47_call_partial P0 predef band d z k hs c (some (classArray shape cats)) hc hf
  rw [call] at call'
  simp only [Except.ok.injEq, Option.some.injEq, Ret.arr.injEq] at call'
  obtain ⟨rfl, rfl, -⟩ := call'
  refine ⟨r, m, call, h1, h2, ?_⟩
  intro i dv zv kv gd gz gk
  have hi : i < cats.length := by
    rw [e3]; by_contra hc; rw [List.getElem?_eq_none (by omega)] at gd; cases gd
  have hcv : clsAt (some (classArray shape cats)) i = some (cats[i] : Int) := by
    simp only [clsAt, Option.bind_some, classArray, List.getElem?_map, List.getElem?_eq_getElem hi, Option.map_some]; rfl
  have hv := e4 cats[i] (List.getElem_mem hi)
  refine ⟨cats[i], List.getElem?_eq_getElem hi, by unfold LiquidSpecies MixedSpecies FrozenSpecies; omega, ?_, ?_⟩
  · intro hl
    refine (h5 i dv zv kv gd gz gk ?_).1
    intro fv hfv
    rw [hcv] at hfv; cases hfv
    unfold LiquidSpecies at hl; omega
  · intro hl hten
    unfold LiquidSpecies at hl
    obtain ⟨g1, g2⟩ := (h6 i dv zv kv _ gd gz gk hcv (by omega) (by omega)).2 hten
    refine ⟨g1, ?_, ?_⟩
    · intro h9 hk hdz
      rw [g2, if_pos ⟨by omega, hk, hdz⟩]
    · intro hno
      rw [g2, if_neg]
      rintro ⟨a, b, c⟩
      exact hno ⟨by omega, b, c⟩

/-- non-vacuity of C133: a classified pair of gates (values shared by all fields) whose rain call succeeds -/
example : ∃ shape cats r m, csuFhcSummer ({ band := "C" } : SummerArgs XR)
    (inputsOf (fun _ => true) ([fun _ => 30, fun _ => -2].map (fun (x : Key → ℝ) k => XR.fin (x k)))) = .ok (some (.hid shape cats)) ∧ cats.length = 2 ∧
    csuHidroRain (Params.default : Params XR) "S" (some (.arr ⟨.float, [2], [XR.fin 30, XR.fin (-2)]⟩)) (some (.arr ⟨.float, [2], [XR.fin 30, XR.fin (-2)]⟩))
      (some (.arr ⟨.float, [2], [XR.fin 30, XR.fin (-2)]⟩)) (some (.arr (classArray shape cats))) = .ok (some (.arr r m none)) := by
  have hA : GoodCall ({ band := "C" } : SummerArgs XR) (fun _ => true) true :=
    ⟨by simp [bands], by show methodOf "hybrid" = _; decide, rfl, by simp, by simp⟩
  obtain ⟨s, c, h1, h2, _⟩ := C21_first_best_finite _ (inputsOf (fun _ => true) _) (fun _ => true)
    [fun _ => 30, fun _ => -2] true defaultW 1 hA rfl rfl one_pos (by show (1 : XR) = _; simp) defaultW_eq
    (goodWeights_default _ _ _ rfl) (by simp) (isGates_inputsOf _ _)
  obtain ⟨r, m, h3, -⟩ := C133_classified_rain_S _ _ s c h1 (Params.default : Params XR) ⟨.float, [2], [XR.fin 30, XR.fin (-2)]⟩
    ⟨.float, [2], [XR.fin 30, XR.fin (-2)]⟩ ⟨.float, [2], [XR.fin 30, XR.fin (-2)]⟩ ⟨rfl, rfl, rfl, rfl, rfl⟩ rfl
  exact ⟨s, c, r, m, h1, h2, h3⟩

/-! ## C134 -/

/-- **C134**, what holds in any arithmetic: a gate whose Kdp does not reach its threshold (flag, NaN, ...) never gets a relation that uses Kdp (methods 1, 2),
a gate whose Zdr does not reach its threshold never one that uses Zdr directly (methods 1, 3) - `calc_blended_rain`, `csu_hidro_rain`, tropical retrieval. -/
theorem C134_not_reached_partial (P : Params α) (T : TropParams α) (fa fb d z k : α) (c : Int) (cs : Option Int) :
    ((P.threshKdp <=. k) = false → methodS P fa fb d z k ∈ ([3, 4, 5] : List Int) ∧ methodOther P d k = 4 ∧
      hidroMethodS P d z k c ∈ ([0, 3, 4] : List Int) ∧ hidroRuleOther P d k c ∈ ([0, 4] : List Int)) ∧
    ((P.threshZdr <=. z) = false → methodS P fa fb d z k ∈ ([2, 4, 5] : List Int) ∧ hidroMethodS P d z k c ∈ ([0, 2, 4] : List Int)) ∧
    ((T.threshKdp <=. k) = false → tropMethod T d z k cs ∈ ([-1, 3, 4, 5, 6] : List Int)) ∧
    ((T.threshZdr <=. z) = false → tropMethod T d z k cs ∈ ([-1, 2, 4, 5, 6] : List Int)) := by
  refine ⟨fun h => ⟨?_, ?_, ?_, ?_⟩, fun h => ⟨?_, ?_⟩, fun h => ?_, fun h => ?_⟩
  · simp only [methodS, h, Bool.and_false, Bool.false_eq_true, if_false]; split_ifs <;> simp
  · simp only [methodOther, h, Bool.and_false, Bool.false_eq_true, if_false]
  · simp only [hidroMethodS, h, Bool.and_false, Bool.false_eq_true, if_false, and_false]; split_ifs <;> simp
  · simp only [hidroRuleOther, h, Bool.and_false, Bool.false_eq_true, if_false]; split_ifs <;> simp
  · simp only [methodS, h, Bool.false_eq_true, if_false]; split_ifs <;> simp
  · simp only [hidroMethodS, h, Bool.and_false, Bool.false_eq_true, if_false]; split_ifs <;> simp
  · simp only [tropMethod, h, Bool.and_false, Bool.false_eq_true, if_false]
    cases cs <;> simp only <;> split_ifs <;> simp
  · simp only [tropMethod, h, Bool.false_eq_true, if_false]
    cases cs <;> simp only <;> split_ifs <;> simp

end

open XR

/-- a value that marks a missing measurement: the flag -32768 of this package or NaN -/
def Missing (x : XR) : Prop := x = fin (-32768) ∨ x = XR.nan

theorem missing_not_reached {t : ℝ} (ht : -32768 < t) {x : XR} (h : Missing x) : (fin t <=. x) = false := by
  rcases h with rfl | rfl
  · rw [fle]; simpa using ht
  · rfl

/-- C134 in full: with default parameters, any band, a gate of finite reflectivity whose Zdr and Kdp are missing gets the R(Z) rate. -/
def C134Full : Prop := ∀ (band : String) (d z k r : NdArray XR) (m : NdArray Int), d.dtype = .float →
  calcBlendedRain Params.default band false (some (.arr d)) (some (.arr z)) (some (.arr k)) = .ok (some (.arr r m none)) →
  ∀ (i : Nat) (dv : ℝ) (zv kv : XR), d.data[i]? = some (fin dv) → z.data[i]? = some zv → k.data[i]? = some kv → Missing zv → Missing kv →
    r.data[i]? = some (fin (nexrad dv)) ∧ m.data[i]? = some 4

/-- **C134**, what holds, other bands: missing Kdp means R(Z), whatever the Zdr. -/
theorem C134_other_bands_partial (band : String) (hb : band ≠ "S") (d z k : NdArray XR) (hs : SameShape d z k) (ht : d.dtype = .float) :
    ∃ r m, calcBlendedRain Params.default band false (some (.arr d)) (some (.arr z)) (some (.arr k)) = .ok (some (.arr r m none)) ∧
      ∀ (i : Nat) (dv : ℝ) (kv : XR), d.data[i]? = some (fin dv) → k.data[i]? = some kv → Missing kv →
        r.data[i]? = some (fin (nexrad dv)) ∧ m.data[i]? = some 4 := by
  obtain ⟨r, m, call, -, -, -, -, h⟩ := C39_blended_other_exact (Params.default : Params XR) band hb false d z k hs
  refine ⟨r, m, call, fun i dv kv hd hk hm => ?_⟩
  obtain ⟨h1, h2⟩ := h i _ _ hd hk
  have hn : ((Params.default : Params XR).threshKdp <=. kv) = false := by
    rw [show (Params.default : Params XR).threshKdp = fin 0.3 from by show (0.3 : XR) = _; simp]
    exact missing_not_reached (by norm_num) hm
  rw [hn, Bool.and_false] at h1 h2
  refine ⟨?_, by simpa using h1⟩
  rw [h2, ht]
  simp only [Bool.false_eq_true, if_false]
  rw [show (Params.default : Params XR).threshNexrad = 53 from rfl, show (Params.default : Params XR).rZA = 300 from rfl,
    show (Params.default : Params XR).rZB = 1.4 from rfl, rZRcap_real]
  rfl

/-- **C134**, what holds, hydrometeor-guided retrieval at any band: a gate of a liquid class with missing Kdp and Zdr gets R(Z). -/
theorem C134_hidro_partial (band : String) (d z k : NdArray XR) (c : NdArray Int) (hs : SameShape d z k) (hc : c.WF) (hcs : d.shape = c.shape)
    (ht : d.dtype = .float) :
    ∃ r m, csuHidroRain Params.default band (some (.arr d)) (some (.arr z)) (some (.arr k)) (some (.arr c)) = .ok (some (.arr r m none)) ∧
      ∀ (i : Nat) (dv : ℝ) (zv kv : XR) (cv : Int), d.data[i]? = some (fin dv) → z.data[i]? = some zv → k.data[i]? = some kv → c.data[i]? = some cv →
        cv = 1 ∨ cv = 2 ∨ cv = 10 → Missing zv → Missing kv → r.data[i]? = some (fin (nexrad dv)) ∧ m.data[i]? = some 4 := by
  have hk : ∀ kv, Missing kv → ((Params.default : Params XR).threshKdp <=. kv) = false := by
    intro kv hm
    rw [show (Params.default : Params XR).threshKdp = fin 0.3 from by show (0.3 : XR) = _; simp]
    exact missing_not_reached (by norm_num) hm
  have hz : ∀ kv, Missing kv → ((Params.default : Params XR).threshZdr <=. kv) = false := by
    intro kv hm
    rw [show (Params.default : Params XR).threshZdr = fin 0.5 from by show (0.5 : XR) = _; simp]
    exact missing_not_reached (by norm_num) hm
  have hr : ∀ dv : ℝ, Common.store .float (rZRcap 53 (Params.default : Params XR).rZA (Params.default : Params XR).rZB (fin dv)) = fin (nexrad dv) := by
    intro dv
    rw [show (Params.default : Params XR).rZA = 300 from rfl, show (Params.default : Params XR).rZB = 1.4 from rfl, rZRcap_real]; rfl
  by_cases hb : band = "S"
  · subst hb
    obtain ⟨r, m, call, -, -, -, -, h⟩ := C44_hidro_S_exact (Params.default : Params XR) d z k c hs hc hcs 0 0
    refine ⟨r, m, call, fun i dv zv kv cv gd gz gk gc hl mz mk => ?_⟩
    obtain ⟨h1, -, h3⟩ := h i _ _ _ _ gd gz gk gc
    have e : hidroMethodS (Params.default : Params XR) (fin dv) zv kv cv = 4 := by
      simp only [hidroMethodS, if_pos hl, hk kv mk, hz zv mz, Bool.and_false, Bool.false_eq_true, if_false]
    rw [e] at h1 h3
    refine ⟨?_, h1⟩
    rw [h3 (by decide), ht, ← hr dv]
    simp [rate]
  · obtain ⟨r, m, call, -, -, -, -, h⟩ := C44_hidro_other_exact (Params.default : Params XR) band hb d z k c hs hc hcs 0 0
    refine ⟨r, m, call, fun i dv zv kv cv gd gz gk gc hl mz mk => ?_⟩
    obtain ⟨h1, -, h3, -⟩ := h i _ _ _ gd gk gc
    have e : hidroRuleOther (Params.default : Params XR) (fin dv) kv cv = 4 := by
      simp only [hidroRuleOther, if_pos hl, hk kv mk, Bool.and_false, Bool.false_eq_true, if_false]
    rw [e] at h1 h3
    exact ⟨by rw [h3 rfl, ht, hr dv], h1⟩

/-- **C134**, what holds, tropical retrieval (defaults, no class arrays): missing Kdp and Zdr above -10 dBZ means R(Z). -/
theorem C134_tropical_partial (d z k : NdArray XR) (hs : SameShape d z k) (ht : d.dtype = .float) :
    ∃ r m, calcBlendedRainTropical TropParams.default "True" "S" (some (.arr d)) (some (.arr z)) (some (.arr k)) none none =
        .ok (some (.arr r m none)) ∧
      ∀ (i : Nat) (dv : ℝ) (zv kv : XR), d.data[i]? = some (fin dv) → z.data[i]? = some zv → k.data[i]? = some kv → -10 ≤ dv → Missing zv → Missing kv →
        r.data[i]? = some (fin ((zLin dv / 216) ^ (1 / 1.39 : ℝ))) ∧ m.data[i]? = some 4 := by
  obtain ⟨r, m, call, -, -, -, -, h⟩ := C46_call_exact (TropParams.default : TropParams XR) "True" "S" d z k hs none none
    (by intro a h; cases h) (by intro a h; cases h)
  refine ⟨r, m, call, fun i dv zv kv gd gz gk hten mz mk => ?_⟩
  obtain ⟨h1, h2⟩ := h i _ _ _ gd gz gk (by intro fv h; cases h)
  rw [show clsAt none i = none from rfl, show tropPredef "True" "S" (TropParams.default : TropParams XR) = TropParams.default from rfl] at h1 h2
  have hk : ((TropParams.default : TropParams XR).threshKdp <=. kv) = false := by
    rw [show (TropParams.default : TropParams XR).threshKdp = fin 0.3 from by show (0.3 : XR) = _; simp]
    exact missing_not_reached (by norm_num) mk
  have hz : ((TropParams.default : TropParams XR).threshZdr <=. zv) = false := by
    rw [show (TropParams.default : TropParams XR).threshZdr = fin 0.25 from by show (0.25 : XR) = _; simp]
    exact missing_not_reached (by norm_num) mz
  have hd : (fin dv <. (-10 : XR)) = false := by
    simp only [foflit, fneg, flt]; simpa using hten
  have e : tropMethod (TropParams.default : TropParams XR) (fin dv) zv kv none = 4 := by
    simp only [tropMethod, hd, hk, hz, Bool.and_false, Bool.false_eq_true, if_false]
  rw [e] at h1 h2
  refine ⟨?_, h1⟩
  rw [h2, ht]
  simp only [tropRate]
  rw [show (TropParams.default : TropParams XR).rZA = fin 216 from by show (216 : XR) = _; simp,
    show (TropParams.default : TropParams XR).rZB = fin 1.39 from by show (1.39 : XR) = _; simp, rZR_fin (by norm_num) (by norm_num)]
  rfl

/-- **C134**, what the code does at S band (defaults): with Kdp missing and Zdr flagged (or any Zdr that is not positive) a gate above -50 dBZ gets method 5
and a rate below 1e-8 mm/h, however strong its reflectivity; with Zdr NaN it gets method 5 and the rate NaN. -/
theorem C134_S_band_partial (d z k : NdArray XR) (hs : SameShape d z k) (ht : d.dtype = .float) :
    ∃ r m, calcBlendedRain Params.default "S" false (some (.arr d)) (some (.arr z)) (some (.arr k)) = .ok (some (.arr r m none)) ∧
      ∀ (i : Nat) (dv : ℝ) (kv : XR), d.data[i]? = some (fin dv) → k.data[i]? = some kv → Missing kv →
        (∀ zv : ℝ, z.data[i]? = some (fin zv) → zv ≤ 0 → -50 ≤ dv →
          m.data[i]? = some 5 ∧ ∃ x : ℝ, r.data[i]? = some (fin x) ∧ 0 < x ∧ x < 1 / 10 ^ 8) ∧
        (z.data[i]? = some XR.nan → m.data[i]? = some 5 ∧ r.data[i]? = some XR.nan) := by
  obtain ⟨r, m, call, -, -, -, -, h⟩ := C38_blended_S_exact (Params.default : Params XR) (fin 0.9091) (fin 8.5091)
    (.inr (.inr (.inl ⟨rfl, rfl, by simp, by simp⟩))) d z k hs
  refine ⟨r, m, call, fun i dv kv gd gk mk => ?_⟩
  have hk : ((Params.default : Params XR).threshKdp <=. kv) = false := by
    rw [show (Params.default : Params XR).threshKdp = fin 0.3 from by show (0.3 : XR) = _; simp]
    exact missing_not_reached (by norm_num) mk
  have hthr : (Params.default : Params XR).threshFracIce = fin 0.1 := by show (0.1 : XR) = _; simp
  have rr : ∀ zv : XR, rate (Params.default : Params XR) (Params.default : Params XR).threshNexrad (fin 0.9091) (fin 8.5091) (fin dv) zv kv 5 =
      rZRcap 53 300 1.4 (10 * PyFloat.log10 (zRain (fin 0.9091) (fin 8.5091) (fin dv) zv)) := fun zv => by
    simp only [rate]; rfl
  constructor
  · intro zv gz hz hdv
    obtain ⟨h1, h2⟩ := h i _ _ _ gd gz gk
    have hzd : zdpR dv zv = -120 := by unfold zdpR; rw [if_pos hz]
    have hice : (iceFraction (fin 0.9091) (fin 8.5091) (fin dv) (fin zv) <. (Params.default : Params XR).threshFracIce) = false := by
      rw [iceFraction_closed, hzd, hthr, flt]
      simp only [decide_eq_false_iff_not, not_lt]
      have : (10 : ℝ) ^ ((0.9091 * (-120) + 8.5091 - dv) / 10) < 10 ^ (-1 : ℝ) :=
        Real.rpow_lt_rpow_of_exponent_lt (by norm_num) (by linarith)
      rw [Real.rpow_neg (by norm_num), Real.rpow_one] at this
      norm_num at this ⊢
      linarith
    have e : methodS (Params.default : Params XR) (fin 0.9091) (fin 8.5091) (fin dv) (fin zv) kv = 5 := by
      simp only [methodS, hice, hk, Bool.and_false, Bool.false_eq_true, if_false]
    rw [e] at h1 h2
    refine ⟨h1, ?_⟩
    rw [ht, rr, zRain_closed, hzd, flog10 (Real.rpow_pos_of_pos (by norm_num) _), Real.logb_rpow (by norm_num) (by norm_num),
      show (10 : XR) = fin 10 from foflit 10, fmul, rZRcap_real] at h2
    refine ⟨_, h2, ?_, ?_⟩
    · unfold nexrad
      have := zLin_pos (min (10 * ((0.9091 * -120 + 8.5091) / 10)) 53)
      positivity
    · unfold nexrad
      have h3 : zLin (min (10 * ((0.9091 * -120 + 8.5091) / 10)) 53) / 300 ≤ 10 ^ (-(12 : ℝ)) := by
        have : zLin (min (10 * ((0.9091 * -120 + 8.5091) / 10)) 53) ≤ 10 ^ (-(10 : ℝ)) := by
          unfold zLin
          apply Real.rpow_le_rpow_of_exponent_le (by norm_num)
          rw [min_eq_left (by norm_num)]; norm_num
        have h4 : (10 : ℝ) ^ (-(10 : ℝ)) = 1 / 10 ^ 10 := by rw [Real.rpow_neg (by norm_num)]; norm_num
        have h5 : (10 : ℝ) ^ (-(12 : ℝ)) = 1 / 10 ^ 12 := by rw [Real.rpow_neg (by norm_num)]; norm_num
        rw [h4] at this; rw [h5]
        rw [div_le_iff₀ (by norm_num)]
        norm_num at this ⊢
        linarith
      have h6 := Real.rpow_le_rpow (div_nonneg (zLin_pos _).le (by norm_num)) h3 (by norm_num : (0 : ℝ) ≤ 1 / 1.4)
      have h7 : ((10 : ℝ) ^ (-(12 : ℝ))) ^ (1 / 1.4 : ℝ) < 10 ^ (-(8 : ℝ)) := by
        rw [← Real.rpow_mul (by norm_num)]
        exact Real.rpow_lt_rpow_of_exponent_lt (by norm_num) (by norm_num)
      have h8 : (10 : ℝ) ^ (-(8 : ℝ)) = 1 / 10 ^ 8 := by rw [Real.rpow_neg (by norm_num)]; norm_num
      rw [h8] at h7
      exact lt_of_le_of_lt h6 h7
  · intro gz
    obtain ⟨h1, h2⟩ := h i _ _ _ gd gz gk
    have hpn : ((10 : XR) ^ XR.nan : XR) = XR.nan := by
      rw [foflit]; show XR.pow (fin 10) XR.nan = _
      simp [XR.pow]
    have hzr : zRain (fin 0.9091) (fin 8.5091) (fin dv) XR.nan = XR.nan := by
      simp only [zRain, zdpDb, lin, nan_div, hpn, div_nan, sub_nan, nan_le, Bool.false_eq_true, if_false, log10_nan, mul_nan, nan_add]
    have hice : (iceFraction (fin 0.9091) (fin 8.5091) (fin dv) XR.nan <. (Params.default : Params XR).threshFracIce) = false := by
      simp only [iceFraction, hzr, nan_div, sub_nan, nan_lt]
    have e : methodS (Params.default : Params XR) (fin 0.9091) (fin 8.5091) (fin dv) XR.nan kv = 5 := by
      simp only [methodS, hice, hk, Bool.and_false, Bool.false_eq_true, if_false]
    rw [e] at h1 h2
    refine ⟨h1, ?_⟩
    rw [h2, ht, rr, hzr]
    have : (1 : XR) / 1.4 = fin (1 / 1.4) := by rw [fsci, fone, fdiv (by norm_num)]
    simp only [rZRcap, log10_nan, mul_nan, lt_nan, Bool.false_eq_true, if_false, rZR, lin, nan_div, hpn, this]
    rw [nan_pow (by norm_num)]
    rfl

/-- **C134** is false of the code: 45 dBZ at S band with flagged Zdr and Kdp gets practically no rain instead of R(Z). -/
theorem C134_full_false : ¬ C134Full := by
  intro h
  have hs : SameShape (⟨.float, [1], [fin 45]⟩ : NdArray XR) (⟨.float, [1], [fin (-32768)]⟩ : NdArray XR) (⟨.float, [1], [fin (-32768)]⟩ : NdArray XR) :=
    ⟨rfl, rfl, rfl, rfl, rfl⟩
  obtain ⟨r, m, call, h1⟩ := C134_S_band_partial _ _ _ hs rfl
  obtain ⟨g1, -⟩ := (h1 0 45 (fin (-32768)) rfl rfl (.inl rfl)).1 (-32768) rfl (by norm_num) (by norm_num)
  obtain ⟨-, g2⟩ := h "S" _ _ _ r m rfl call 0 45 _ _ rfl rfl rfl (.inl rfl) (.inl rfl)
  rw [g1] at g2
  cases g2

/-- non-vacuity of C134: three gates (both flagged, NaN, valid) of a C-band call -/
example : ∃ r m, calcBlendedRain (Params.default : Params XR) "C" false (some (.arr ⟨.float, [3], [fin 45, fin 20, fin 45]⟩))
    (some (.arr ⟨.float, [3], [fin (-32768), XR.nan, fin 1]⟩)) (some (.arr ⟨.float, [3], [fin (-32768), XR.nan, fin 1]⟩)) =
      .ok (some (.arr r m none)) ∧ m.data[0]? = some 4 ∧ m.data[1]? = some 4 ∧ r.data[1]? = some (fin (nexrad 20)) := by
  obtain ⟨r, m, call, h⟩ := C134_other_bands_partial "C" (by decide) ⟨.float, [3], [fin 45, fin 20, fin 45]⟩
    ⟨.float, [3], [fin (-32768), XR.nan, fin 1]⟩ ⟨.float, [3], [fin (-32768), XR.nan, fin 1]⟩ ⟨rfl, rfl, rfl, rfl, rfl⟩ rfl
  exact ⟨r, m, call, (h 0 45 _ rfl rfl (.inl rfl)).2, (h 1 20 _ rfl rfl (.inr rfl)).2, (h 1 20 _ rfl rfl (.inr rfl)).1⟩

end Csu.Rain
