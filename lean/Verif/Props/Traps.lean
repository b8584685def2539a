import Verif.Model.Traps
import Verif.Spec.Traps
import Verif.XReal
import Mathlib.Topology.Order.Basic
import Mathlib.Topology.Algebra.Order.LiminfLimsup
import Mathlib.Topology.Piecewise
import Mathlib.Topology.MetricSpace.Pseudo.Defs
import Mathlib.Tactic.Linarith
import Mathlib.Tactic.NormNum
import Mathlib.Tactic.Positivity
import Mathlib.Tactic.IntervalCases
/-!
# C29, C30: temperature trapezoids
-/
namespace Csu.Traps
open Csu PyFloat Common XR TrapSpec

/-! ## The array code computes `curve` at every element -/

theorem map_fin {f : XR → XR} {g : ℝ → ℝ} (h : ∀ x, f (fin x) = fin (g x)) (xs : List ℝ) :
    (xs.map fin).map f = (xs.map g).map fin := by
  simp [List.map_map, Function.comp_def, h]

theorem store_float (x : XR) : store .float x = x := rfl

/-- close one element's case distinction -/
macro "trap_case" : tactic => `(tactic| (
  simp only [Bool.and_eq_true, decide_eq_true_eq, fin_inj, store_float]
  split_ifs <;> first
    | rfl
    | (exfalso; grind)
    | (rw [fin_inj]; norm_num; done)
    | (rw [fin_inj]; norm_num [abs_mul, abs_div]; ring_nf; done)
    | (rw [fin_inj]; norm_num [abs_mul, abs_div]; rw [abs_of_nonneg (by grind)]; ring_nf; done)
    | (rw [fin_inj]; norm_num [abs_mul, abs_div]; rw [abs_of_nonneg (by grind)]; norm_num; grind)))

section
variable (xs : List ℝ)

/-- evaluate the straight-line arithmetic of one element -/
macro "trap_eval" d:ident : tactic => `(tactic| (
  simp only [$d:ident, between, store, List.map_map, maskSet_map, maskCopy_map, logicalAnd_map]
  apply List.map_congr_left
  intro x _
  simp only [Function.comp_def, foflit, fone, fzero, fneg, fabs, fadd, fsub, fle, fge, fsci, curve]
  repeat (first | rw [fdiv (by norm_num)] | rw [fmul] | rw [fadd] | rw [fsub] | rw [fabs])))

theorem dz_curve : tTrapDz .float (xs.map fin) (-3) (-1) = (xs.map (curve 0)).map fin := by
  trap_eval tTrapDz
  trap_case
theorem rain_curve : tTrapRain .float (xs.map fin) (-10) (-2) = (xs.map (curve 1)).map fin := by
  trap_eval tTrapRain
  trap_case
theorem ic_curve : tTrapIc .float (xs.map fin) 0 5 = (xs.map (curve 2)).map fin := by
  trap_eval tTrapIc
  trap_case
theorem agg_curve : tTrapAgg .float (xs.map fin) (-35) (-25) 0 5 = (xs.map (curve 3)).map fin := by
  trap_eval tTrapAgg
  trap_case
theorem ws_curve : tTrapWs .float (xs.map fin) (-3) 3 = (xs.map (curve 4)).map fin := by
  trap_eval tTrapWs
  trap_case
theorem ldg_curve : tTrapLdg .float (xs.map fin) (-40) (-30) 0 5 = (xs.map (curve 6)).map fin := by
  trap_eval tTrapLdg
  trap_case
theorem hdg_curve : tTrapHdg .float (xs.map fin) (-30) (-20) 5 30 = (xs.map (curve 7)).map fin := by
  trap_eval tTrapHdg
  trap_case
theorem ha_curve : tTrapHa .float (xs.map fin) (-30) (-20) 5 15 = (xs.map (curve 8)).map fin := by
  trap_eval tTrapHa
  trap_case
theorem bd_curve : tTrapBd .float (xs.map fin) (-2) 1 = (xs.map (curve 9)).map fin := by
  trap_eval tTrapBd
  trap_case
end

/-- values on NaN and the infinities: 0 for NaN, the outer plateaus for the infinities -/
noncomputable def curveX (c : Nat) : XR → XR
  | fin t => fin (curve c t)
  | XR.nan => fin 0
  | ninf => fin (curve c (-100))
  | pinf => fin (curve c 100)

/-- the trapezoids work element by element (any arithmetic, any dtype) -/
theorem gatewise {α : Type} [PyFloat α] (c : Nat) (hc : c < 10) (t : DType) :
    ∃ f : α → α, ∀ xs : List α, getHidTraps (c : Int) t xs = some (xs.map f) := by
  interval_cases c <;>
    (simp only [getHidTraps]; norm_num
     simp only [tTrapDz, tTrapRain, tTrapIc, tTrapAgg, tTrapWs, tTrapLdg, tTrapHdg, tTrapHa, tTrapBd, between,
       List.map_map, maskSet_map, maskCopy_map, logicalAnd_map]
     exact ⟨_, fun _ => rfl⟩)

theorem finite_values (c : Nat) (hc : c < 10) (xs : List ℝ) :
    getHidTraps (c : Int) .float (xs.map fin) = some ((xs.map (curve c)).map fin) := by
  interval_cases c <;> simp only [getHidTraps] <;> norm_num only [if_true, if_false] <;>
    first
    | rw [dz_curve] | rw [rain_curve] | rw [agg_curve] | rw [ws_curve] | rw [ldg_curve] | rw [hdg_curve] | rw [ha_curve]
    | rw [bd_curve] | rw [ic_curve]
  rfl


theorem nan_value (c : Nat) (hc : c < 10) : getHidTraps (c : Int) .float [XR.nan] = some [fin 0] := by
  interval_cases c <;> simp only [getHidTraps] <;> norm_num only [if_true, if_false] <;>
    simp [tTrapDz, tTrapRain, tTrapIc, tTrapAgg, tTrapWs, tTrapLdg, tTrapHdg, tTrapHa, tTrapBd, between, maskSet,
      maskCopy, logicalAnd, store_float]

theorem pinf_value (c : Nat) (hc : c < 10) : getHidTraps (c : Int) .float [pinf] = some [fin (curve c 100)] := by
  have e1 : ∀ r : ℝ, (pinf <=. fin r) = false := fun _ => rfl
  have e2 : ∀ r : ℝ, (pinf >=. fin r) = true := fun _ => rfl
  interval_cases c <;> simp only [getHidTraps] <;> norm_num only [if_true, if_false] <;>
    simp [tTrapDz, tTrapRain, tTrapIc, tTrapAgg, tTrapWs, tTrapLdg, tTrapHdg, tTrapHa, tTrapBd, between, maskSet,
      maskCopy, logicalAnd, store_float, curve, e1, e2] <;> norm_num

theorem ninf_value (c : Nat) (hc : c < 10) : getHidTraps (c : Int) .float [ninf] = some [fin (curve c (-100))] := by
  have e1 : ∀ r : ℝ, (ninf <=. fin r) = true := fun _ => rfl
  have e2 : ∀ r : ℝ, (ninf >=. fin r) = false := fun _ => rfl
  interval_cases c <;> simp only [getHidTraps] <;> norm_num only [if_true, if_false] <;>
    simp [tTrapDz, tTrapRain, tTrapIc, tTrapAgg, tTrapWs, tTrapLdg, tTrapHdg, tTrapHa, tTrapBd, between, maskSet,
      maskCopy, logicalAnd, store_float, curve, e1, e2] <;> norm_num

/-! ## C29 -/

/-- **C29**: for types 0..9 and a float array the result is, element by element, the trapezoid of the type; NaN gives 0. -/
theorem C29_values (c : Nat) (hc : c < 10) (xs : List XR) :
    getHidTraps (c : Int) .float xs = some (xs.map (curveX c)) := by
  obtain ⟨f, hf⟩ := gatewise (α := XR) c hc .float
  rw [hf]
  congr 1
  apply List.map_congr_left
  intro x _
  have h := hf [x]
  cases x with
  | fin r =>
    have := finite_values c hc [r]
    simp only [List.map_cons, List.map_nil] at this h
    rw [this] at h
    simpa [curveX] using h.symm
  | nan => rw [nan_value c hc] at h; simpa [curveX] using h.symm
  | pinf => rw [pinf_value c hc] at h; simpa [curveX] using h.symm
  | ninf => rw [ninf_value c hc] at h; simpa [curveX] using h.symm

theorem curve_bounds (c : Nat) (t : ℝ) : -1 ≤ curve c t ∧ curve c t ≤ 1 := by
  unfold curve
  split <;> (try split_ifs) <;> constructor <;> linarith

/-- **C29**: every value lies in [-1, 1] (for every float, NaN and infinities included). -/
theorem C29_bounded (c : Nat) (hc : c < 10) (xs : List XR) :
    ∃ ys, getHidTraps (c : Int) .float xs = some ys ∧ ys.length = xs.length ∧
      ∀ y ∈ ys, ∃ r : ℝ, y = fin r ∧ -1 ≤ r ∧ r ≤ 1 := by
  refine ⟨_, C29_values c hc xs, by simp, ?_⟩
  intro y hy
  obtain ⟨x, -, rfl⟩ := List.mem_map.mp hy
  cases x with
  | fin t => exact ⟨_, rfl, curve_bounds c t⟩
  | nan => exact ⟨0, rfl, by norm_num, by norm_num⟩
  | ninf => exact ⟨_, rfl, curve_bounds c _⟩
  | pinf => exact ⟨_, rfl, curve_bounds c _⟩

/-- **C29**: hail is between 0.2 and 0.8 at every temperature. -/
theorem C29_hail_bounded (ts : List ℝ) :
    ∃ ys : List ℝ, getHidTraps 8 .float (ts.map fin) = some (ys.map fin) ∧ ys.length = ts.length ∧
      ∀ y ∈ ys, 0.2 ≤ y ∧ y ≤ 0.8 := by
  refine ⟨_, finite_values 8 (by norm_num) ts, by simp, ?_⟩
  intro y hy
  obtain ⟨t, -, rfl⟩ := List.mem_map.mp hy
  simp only [curve]
  split_ifs <;> constructor <;> norm_num <;> linarith

/-- **C29**: any other type number, negative ones included, gives `None` (any arithmetic and dtype). -/
theorem C29_out_of_range {α : Type} [PyFloat α] (c : Int) (t : DType) (xs : List α) :
    getHidTraps c t xs = none ↔ ¬ (0 ≤ c ∧ c ≤ 9) := by
  unfold getHidTraps
  constructor
  · intro h hc
    have hc1 := hc.1; have hc2 := hc.2
    interval_cases c <;> simp at h
  · intro h
    repeat rw [if_neg (by omega)]

/-- **C29**: vertical ice is treated exactly as ice crystals (any arithmetic and dtype). -/
theorem C29_vertical_ice {α : Type} [PyFloat α] (t : DType) (xs : List α) :
    getHidTraps 5 t xs = getHidTraps 2 t xs := by
  simp [getHidTraps]

/-- **C29**: the liquid types (drizzle, rain, big drops) never decrease with temperature. -/
theorem C29_liquid_monotone (c : Nat) (hc : c = 0 ∨ c = 1 ∨ c = 9) (s t a b : ℝ) (hst : s ≤ t)
    (h : getHidTraps (c : Int) .float [fin s, fin t] = some [fin a, fin b]) : a ≤ b := by
  have e := finite_values c (by omega) [s, t]
  simp only [List.map_cons, List.map_nil] at e
  rw [h] at e
  simp only [Option.some.injEq, List.cons.injEq, fin_inj, and_true] at e
  obtain ⟨rfl, rfl⟩ := e
  rcases hc with rfl | rfl | rfl <;> simp only [curve] <;> split_ifs <;> linarith

/-- **C29**: the ice types (2..8) never increase with temperature at and above freezing. -/
theorem C29_ice_antitone (c : Nat) (hc : 2 ≤ c ∧ c ≤ 8) (s t a b : ℝ) (h0 : 0 ≤ s) (hst : s ≤ t)
    (h : getHidTraps (c : Int) .float [fin s, fin t] = some [fin a, fin b]) : b ≤ a := by
  have e := finite_values c (by omega) [s, t]
  simp only [List.map_cons, List.map_nil] at e
  rw [h] at e
  simp only [Option.some.injEq, List.cons.injEq, fin_inj, and_true] at e
  obtain ⟨rfl, rfl⟩ := e
  obtain ⟨h1, h2⟩ := hc
  interval_cases c <;> simp only [curve] <;> split_ifs <;> linarith

/-- the hypotheses of the monotonicity theorems on a concrete pair of temperatures -/
example : getHidTraps (1 : Nat) .float [fin (-6), fin 4] = some [fin (1 / 3), fin 1] ∧
    getHidTraps (3 : Nat) .float [fin 1, fin 3] = some [fin (4 / 5), fin (2 / 5)] := by
  have e1 := finite_values 1 (by norm_num) [-6, 4]
  have e2 := finite_values 3 (by norm_num) [1, 3]
  simp only [List.map_cons, List.map_nil] at e1 e2
  rw [e1, e2]
  simp only [curve]
  norm_num

/-! ## C30 -/

/-- Type `c` has a continuous temperature function: the code computes some continuous real function. -/
def ContinuousTrap (c : Nat) : Prop :=
  ∃ f : ℝ → ℝ, Continuous f ∧ ∀ ts : List ℝ, getHidTraps (c : Int) .float (ts.map fin) = some ((ts.map f).map fin)

/-- **C30** in full: every trapezoid is continuous. -/
def AllContinuous : Prop := ∀ c < 10, ContinuousTrap c

theorem continuousTrap_iff (c : Nat) (hc : c < 10) : ContinuousTrap c ↔ Continuous (curve c) := by
  constructor
  · rintro ⟨f, hf, h⟩
    have : f = curve c := by
      funext t
      have h1 := h [t]
      rw [finite_values c hc] at h1
      simpa using h1.symm
    rwa [← this]
  · intro h
    exact ⟨curve c, h, finite_values c hc⟩

/-- a linear ramp from `lo` to `hi` is continuous -/
theorem ramp {lo hi a b k : ℝ} (hk : k * (b - a) = hi - lo) (hab : a ≤ b) (t : ℝ) :
    lo + k * (max a (min b t) - a) = if t < a then lo else if t ≤ b then lo + k * (t - a) else hi := by
  split_ifs with h1 h2
  · rw [min_eq_right (by linarith), max_eq_left h1.le]; ring
  · rw [min_eq_right h2, max_eq_right (not_lt.mp h1)]
  · rw [min_eq_left (by linarith), max_eq_right hab, hk]; ring

theorem hdg_continuous : Continuous (curve 7) := by
  have : curve 7 = fun t => (3 / 10 + 7 / 100 * (max (-30) (min (-20) t) - (-30))) +
      (1 + -2 / 25 * (max 5 (min 30 t) - 5)) - 1 := by
    funext t
    rw [ramp (hi := 1) (by norm_num) (by norm_num), ramp (hi := -1) (by norm_num) (by norm_num)]
    simp only [curve]
    split_ifs <;> linarith
  rw [this]; fun_prop

theorem ha_continuous : Continuous (curve 8) := by
  have : curve 8 = fun t => (1 / 5 + 6 / 100 * (max (-30) (min (-20) t) - (-30))) +
      (4 / 5 + -6 / 100 * (max 5 (min 15 t) - 5)) - 4 / 5 := by
    funext t
    rw [ramp (hi := 4 / 5) (by norm_num) (by norm_num), ramp (hi := 1 / 5) (by norm_num) (by norm_num)]
    simp only [curve]
    split_ifs <;> linarith
  rw [this]; fun_prop

theorem eq_at_left {f : ℝ → ℝ} (hf : Continuous f) {a k : ℝ} (h : ∀ t < a, f t = k) : f a = k := by
  have hcl : IsClosed {t | f t = k} := isClosed_eq hf continuous_const
  have : closure (Set.Iio a) ⊆ {t | f t = k} := hcl.closure_subset_iff.mpr h
  rw [closure_Iio] at this
  exact this (Set.mem_Iic.mpr le_rfl)

theorem eq_at_right {f : ℝ → ℝ} (hf : Continuous f) {a k : ℝ} (h : ∀ t, a < t → f t = k) : f a = k := by
  have hcl : IsClosed {t | f t = k} := isClosed_eq hf continuous_const
  have : closure (Set.Ioi a) ⊆ {t | f t = k} := hcl.closure_subset_iff.mpr h
  rw [closure_Ioi] at this
  exact this (Set.mem_Ici.mpr le_rfl)

/-- **C30 is false of the code**, and exactly how: of the ten temperature functions only high-density graupel and hail
are continuous. -/
theorem C30_continuous_iff_partial (c : Nat) (hc : c < 10) : ContinuousTrap c ↔ c = 7 ∨ c = 8 := by
  rw [continuousTrap_iff c hc]
  constructor
  · intro h
    by_contra hne
    push Not at hne
    have hj : c = 0 ∨ c = 1 ∨ c = 2 ∨ c = 3 ∨ c = 4 ∨ c = 5 ∨ c = 6 ∨ c = 9 := by omega
    rcases hj with rfl | rfl | rfl | rfl | rfl | rfl | rfl | rfl
    · have := eq_at_left h (a := -3) (k := -1) (fun t ht => by simp [curve, ht])
      simp only [curve] at this; norm_num at this
    · have := eq_at_left h (a := -10) (k := -1) (fun t ht => by simp [curve, ht])
      simp only [curve] at this; norm_num at this
    · have := eq_at_right h (a := 5) (k := -1) (fun t ht => by
        simp only [curve]; rw [if_neg (by linarith), if_neg (by linarith)])
      simp only [curve] at this; norm_num at this
    · have := eq_at_right h (a := 5) (k := -1) (fun t ht => by
        simp only [curve]
        rw [if_neg (by linarith), if_neg (by linarith), if_neg (by linarith), if_neg (by linarith)])
      simp only [curve] at this; norm_num at this
    · have := eq_at_left h (a := -3) (k := -1) (fun t ht => by simp [curve, ht])
      simp only [curve] at this; norm_num at this
    · have := eq_at_right h (a := 5) (k := -1) (fun t ht => by
        simp only [curve]; rw [if_neg (by linarith), if_neg (by linarith)])
      simp only [curve] at this; norm_num at this
    · have := eq_at_right h (a := 5) (k := -1) (fun t ht => by
        simp only [curve]
        rw [if_neg (by linarith), if_neg (by linarith), if_neg (by linarith), if_neg (by linarith)])
      simp only [curve] at this; norm_num at this
    · have := eq_at_left h (a := -2) (k := -1) (fun t ht => by simp [curve, ht])
      simp only [curve] at this; norm_num at this
  · rintro (rfl | rfl)
    · exact hdg_continuous
    · exact ha_continuous

/-- **C30**, the negation of the full statement. -/
theorem C30_all_continuous_false : ¬ AllContinuous := by
  intro h
  have := (C30_continuous_iff_partial 0 (by norm_num)).mp (h 0 (by norm_num))
  omega

/-- **C30**, the size of one of the jumps: rain drops from 1 to 2/3 when the temperature goes down to -2 and from 0
to -1 just below -10. -/
theorem C30_rain_jumps (ε : ℝ) (hε : 0 < ε) :
    getHidTraps 1 .float [fin (-2 + ε), fin (-2), fin (-10), fin (-10 - ε)] =
      some [fin 1, fin (2 / 3), fin 0, fin (-1)] := by
  have e := finite_values 1 (by norm_num) [-2 + ε, -2, -10, -10 - ε]
  simp only [List.map_cons, List.map_nil] at e
  rw [show ((1 : Nat) : Int) = 1 from rfl] at e
  rw [e]
  simp only [curve]
  rw [if_neg (by linarith), if_neg (by linarith), if_neg (by norm_num), if_pos (by norm_num), if_neg (by norm_num),
    if_pos (by norm_num), if_pos (by linarith)]
  norm_num

end Csu.Traps
