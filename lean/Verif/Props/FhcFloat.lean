import Verif.Lemmas.FhcFloat
import Verif.Binary
import Verif.Lemmas.Winter
import Verif.Props.Fhc2
import Verif.Props.Winter
/-!
# C18, C20, C21, C31 and C106 with rounding

The theorems of Props/Fhc*.lean and Props/Winter.lean about numbers are about exact real arithmetic.  Here the arithmetic is any
floating-point arithmetic satisfying the laws of `IeeeFloat` (Verif/Ieee.lean; Verif/Binary.lean has the instances), so every operation
may round, overflow and underflow.
-/
namespace Csu.Fhc
open Csu PyFloat Tables FhcSpec IeeeFloat
variable {α : Type} [IeeeFloat α]

/-- the float `a` is a real number in `[0,1]` -/
def InUnit (a : α) : Prop := ∃ r : ℝ, val a = .fin r ∧ 0 ≤ r ∧ r ≤ 1

/-- the float `a` is a finite number -/
def IsFinite (a : α) : Prop := ∃ r : ℝ, val a = .fin r

/-! ## C18 -/

/-- C18 with rounding: with finite parameters (width not zero, slope not negative) the compiled membership function neither raises nor
returns anything outside `[0,1]` at finite arguments. -/
theorem C18_float_unit (m a b : α) (hm : IsFinite m) (ha : ∃ r : ℝ, val a = .fin r ∧ r ≠ 0) (hb : ∃ r : ℝ, val b = .fin r ∧ 0 ≤ r)
    (xs : List α) (hx : ∀ x ∈ xs, IsFinite x) :
    ∃ μs, hidBetaF xs.length xs ⟨m, a, b⟩ = .ok μs ∧ μs.length = xs.length ∧ ∀ μ ∈ μs, InUnit μ := by
  refine ⟨xs.map (beta ⟨m, a, b⟩), ?_, by simp, ?_⟩
  · unfold hidBetaF
    have hz : (a ==. 0) = false := by
      obtain ⟨r, h1, h2⟩ := ha
      have := val_eq a (0 : α)
      rw [Ieee.vzero, h1] at this
      rw [this]; simp [XR.eq, h2]
    by_cases h0 : xs.length = 0
    · have : xs = [] := List.length_eq_zero_iff.mp h0
      subst this; simp
    · simp [h0, hz]
  · intro μ hμ
    obtain ⟨x, h1, rfl⟩ := List.mem_map.mp hμ
    obtain ⟨y, hy⟩ := hx x h1
    exact (beta_unit (r := ⟨m, a, b⟩) ⟨hm, ha, hb⟩ hy).real

/-- a width of 3 and a slope of 2 in binary32, at the points -4, 0.1 (rounded) and 10^6 -/
example : ∃ μs, hidBetaF 3 [-4, 0.1, 1000000] (⟨0.5, 3, 2⟩ : Row Binary32) = .ok μs ∧ μs.length = 3 ∧ ∀ μ ∈ μs, InUnit μ := by
  have h05 : IsFinite (0.5 : Binary32) := by
    obtain ⟨r, h, -⟩ := Ieee.between (Ieee.rnd_ge (α := Binary32) Ieee.simple_zero (x := .fin 0.5) (by rw [Ieee.le_fin]; norm_num))
      (Ieee.rnd_le (α := Binary32) Ieee.simple_one (by rw [Ieee.le_fin]; norm_num))
    exact ⟨r, by rw [Ieee.vsci]; exact h⟩
  have h01 : IsFinite (0.1 : Binary32) := by
    obtain ⟨r, h, -⟩ := Ieee.between (Ieee.rnd_ge (α := Binary32) Ieee.simple_zero (x := .fin 0.1) (by rw [Ieee.le_fin]; norm_num))
      (Ieee.rnd_le (α := Binary32) Ieee.simple_one (by rw [Ieee.le_fin]; norm_num))
    exact ⟨r, by rw [Ieee.vsci]; exact h⟩
  refine C18_float_unit _ _ _ h05 ⟨3, Ieee.voflit 3 (by norm_num), by norm_num⟩ ⟨2, Ieee.voflit 2 (by norm_num), by norm_num⟩
    [-4, 0.1, 1000000] ?_
  intro x hx
  rcases List.mem_cons.mp hx with rfl | hx
  · exact ⟨-4, by rw [Ieee.vneg, Ieee.voflit 4 (by norm_num)]; rfl⟩
  rcases List.mem_cons.mp hx with rfl | hx
  · exact h01
  rcases List.mem_cons.mp hx with rfl | hx
  · exact ⟨1000000, Ieee.voflit 1000000 (by norm_num)⟩
  · cases hx

/-- C18 with rounding: at the centre the membership function returns exactly 1. -/
theorem C18_float_centre (m a b : α) (hm : IsFinite m) (ha : ∃ r : ℝ, val a = .fin r ∧ r ≠ 0) (hb : ∃ r : ℝ, val b = .fin r ∧ 0 < r) :
    ∃ μ, hidBetaF 1 [m] ⟨m, a, b⟩ = .ok [μ] ∧ val μ = .fin 1 := by
  obtain ⟨μs, h1, h2, -⟩ := C18_float_unit m a b hm ha (by obtain ⟨r, h1, h2⟩ := hb; exact ⟨r, h1, h2.le⟩) [m] (by simpa using hm)
  have e : μs = [beta ⟨m, a, b⟩ m] := by
    unfold hidBetaF at h1
    have g1 : ¬ [m].length = 0 := by simp
    rw [if_neg g1] at h1
    split_ifs at h1 with g2
    · simpa using h1.symm
  subst e
  refine ⟨_, h1, ?_⟩
  obtain ⟨x, hx⟩ := hm
  obtain ⟨y, hy, y0⟩ := ha
  obtain ⟨z, hz, z0⟩ := hb
  have d0 : val (m - m) = .fin 0 := by
    rw [Ieee.vsub, hx, XR.fsub, sub_self]; exact Ieee.rnd_simple Ieee.simple_zero
  have q0 : val ((m - m) / a) = .fin 0 := by
    rw [Ieee.vdiv _ _ (by rw [hy]; simpa using y0), d0, hy, XR.fdiv y0, zero_div]; exact Ieee.rnd_simple Ieee.simple_zero
  have zpow : ∀ (u v : α) (t : ℝ), val u = .fin 0 → val v = .fin t → 0 < t → val (u ^ v) = .fin 0 := by
    intro u v t hu hv ht
    have := val_pow u v (.inr (by rw [hv, Ieee.le_fin]; exact ht.le))
    rw [hu, hv] at this
    have e : XR.pow (.fin 0) (.fin t) = .fin 0 := by simp [XR.pow, XR.powFin, ht]
    rw [e] at this
    obtain ⟨r, hr, r0, r1⟩ := Ieee.between (this.ge0 (by rw [Ieee.le_fin])) (this.le0 (by rw [Ieee.le_fin]))
    have h : val (u ^ v) = .fin r := hr
    rw [h, le_antisymm r1 r0]
  have p2 := zpow _ b z (zpow _ (2.0 : α) 2 q0 v2 (by norm_num)) hz z0
  have s : val ((1.0 : α) + ((((m - m) / a) ^ (2.0 : α)) ^ b)) = .fin 1 := by
    rw [Ieee.vadd, v1, p2, XR.fadd, add_zero]; exact Ieee.rnd_simple Ieee.simple_one
  unfold beta
  rw [Ieee.vdiv _ _ (by rw [s]; simp), s, v1, XR.fdiv one_ne_zero, div_one]
  exact Ieee.rnd_simple Ieee.simple_one

/-! ## C20 -/

/-- a number of moderate size: between `2^-20` and `2^20` -/
def Moderate (f : α) : Prop := ∃ φ : ℝ, val f = .fin φ ∧ 2 ^ (-20 : ℤ) ≤ φ ∧ φ ≤ 2 ^ (20 : ℤ)

/-- usable weights in floating point: numbers from 0 to `2^20` that can be averaged over (`GoodWeights`) -/
def GoodWeightsF (hybrid : Bool) (P : Key → Bool) (useTemp : Bool) (W : Key → α) : Prop :=
  ∃ w : Key → ℝ, (∀ k, val (W k) = .fin (w k)) ∧ (∀ k, w k ≤ 2 ^ 20) ∧ GoodWeights hybrid P useTemp w

theorem noZeroWidth_summerF {band : String} (hb : band ∈ bands) {f : α} (hf : Moderate f) : NoZeroWidth α .summer band f := by
  obtain ⟨φ, h1, h2, h3⟩ := hf
  refine noZeroWidth_float h1 h2 h3 ?_
  intro k rows r hr hmem
  obtain ⟨rows', e1, _, e3⟩ := C19_summer band hb k
  rw [e1] at hr
  injection hr with hr
  subst hr
  exact Or.inl (e3 r hmem)

theorem gScore_table {band : String} {s : Season} {P : Key → Bool} {c : Nat} (hg : GoodAt band s P c) {u hybrid trap : Bool} {f : α}
    (hf : Moderate f) (hdz : P .DZ = true) (htrap : hybrid = false → trap = false) {W : Key → Nat → α}
    (hw : GoodWeightsF hybrid P u (fun k => W k c)) (hlin : hybrid = false → P .T = true → u = true)
    {g : Key → α} (hx : ∀ k, P k = true → IsFinite (g k)) :
    InUnit (gScore (cfg P u W (setsOf s (effTemp P u) f band) hybrid trap) c g) := by
  obtain ⟨φ, h1, h2, h3⟩ := hf
  obtain ⟨w, w1, w2, w3⟩ := hw
  refine (gScore_unit hdz htrap w1 w3.nonneg w2 (fun k hk hT => member_unit hg h1 h2 h3 hx k hk hT) ?_ w3.hyb ?_).real
  · intro e hT; simp [effTemp, hT, hlin e hT]
  · intro e
    obtain ⟨k, k1, k2, k3⟩ := w3.lin e
    refine ⟨k, k1, ?_, k3⟩
    intro hk
    subst hk
    simp [effTemp, k1, k2 rfl]

/-- C20 with rounding: every score is a number between 0 and 1, whatever the precision and the rounding, for finite gates, any subset of
variables for which the call succeeds, any band, both methods, any usable weights and any `temp_factor` of moderate size
(trapezoids off for `linear`). -/
theorem C20_float (A : SummerArgs α) (I : Inputs α) (P : Key → Bool) (gs : List (Key → α))
    (hybrid : Bool) (hA : GoodCall A P hybrid) (hn : A.nTypes = 10) (hret : A.returnScores = true) (hf : Moderate A.tempFactor)
    (hw : GoodWeightsF hybrid P A.useTemp A.weights) (htrap : hybrid = false → A.useTrap = false)
    (hx : ∀ g ∈ gs, ∀ k, P k = true → IsFinite (g k)) (h : IsGates I P gs) :
    ∃ shape rows, csuFhcSummer A I = .ok (some (.scores shape rows)) ∧ rows.length = 10 ∧
      ∀ row ∈ rows, row.length = gs.length ∧ ∀ v ∈ row, InUnit v := by
  obtain ⟨dz, _, h2⟩ := summer_gates hA hn (noZeroWidth_summerF hA.band hf) h
  simp only [hret, if_true] at h2
  refine ⟨_, _, h2, by simp, ?_⟩
  intro row hrow
  obtain ⟨c, hc, rfl⟩ := List.mem_map.mp hrow
  refine ⟨by simp, ?_⟩
  intro v hv
  obtain ⟨g, hg, rfl⟩ := List.mem_map.mp hv
  refine gScore_table (goodAt_summer hA.band P c (List.mem_range.mp hc)) hf hA.dz htrap hw ?_ (hx g hg)
  intro e hT
  rcases hA.linT e hT with h | h
  · exact h
  · rw [htrap e] at h; cases h

/-- a decimal literal between two powers of two -/
theorem rnd_range (x : ℝ) (h1 : 2 ^ (-20 : ℤ) ≤ x) (h2 : x ≤ 2 ^ (20 : ℤ)) :
    ∃ r : ℝ, rnd α (.fin x) = .fin r ∧ 2 ^ (-20 : ℤ) ≤ r ∧ r ≤ 2 ^ (20 : ℤ) :=
  Ieee.between (Ieee.rnd_ge (Ieee.simple_two_zpow (-20) (by norm_num)) (by rw [Ieee.le_fin]; exact h1))
    (Ieee.rnd_le (Ieee.simple_two_zpow 20 (by norm_num)) (by rw [Ieee.le_fin]; exact h2))

theorem moderate_one : Moderate (1 : α) := ⟨1, Ieee.vone, by norm_num, by norm_num⟩

theorem defaultWeights_moderate (k : Key) : Moderate (defaultWeights k : α) := by
  cases k <;> (simp only [defaultWeights, Moderate]; rw [Ieee.vsci]; exact rnd_range _ (by norm_num) (by norm_num))

theorem goodWeightsF_of_moderate {hybrid : Bool} {P : Key → Bool} {u : Bool} {W : Key → α} (hP : P .DZ = true) (h : ∀ k, Moderate (W k)) :
    GoodWeightsF hybrid P u W := by
  choose w h1 h2 h3 using h
  have pos : ∀ k, 0 < w k := fun k => lt_of_lt_of_le (by positivity) (h2 k)
  exact ⟨w, h1, fun k => by have := h3 k; norm_num at this ⊢; exact this, fun k => (pos k).le,
    fun _ ⟨k, e1, e2⟩ => ⟨k, e1, e2, pos k⟩, fun _ => ⟨.DZ, hP, by simp, pos _⟩⟩

/-- C20 with rounding, for the default call (hybrid, default weights) in every band: the scores of finite gates, and the default weights
themselves, may be rounded in any way. -/
theorem C20_float_default (band : String) (hb : band ∈ bands) (P : Key → Bool) (hP : P .DZ = true) (gs : List (Key → α))
    (hx : ∀ g ∈ gs, ∀ k, P k = true → IsFinite (g k)) :
    ∃ shape rows, csuFhcSummer ({ band := band, returnScores := true } : SummerArgs α) (inputsOf P gs) = .ok (some (.scores shape rows)) ∧
      rows.length = 10 ∧ ∀ row ∈ rows, row.length = gs.length ∧ ∀ v ∈ row, InUnit v :=
  C20_float _ _ P gs true ⟨hb, by show methodOf "hybrid" = _; decide, hP, by simp, by simp⟩ rfl rfl moderate_one
    (goodWeightsF_of_moderate hP defaultWeights_moderate) (by simp) hx (isGates_inputsOf _ _)

/-- binary64, C band, all variables, two gates -/
example : ∃ shape rows, csuFhcSummer ({ band := "C", returnScores := true } : SummerArgs Binary64)
      (inputsOf (fun _ => true) [fun _ => 30, fun _ => -2]) = .ok (some (.scores shape rows)) ∧
      rows.length = 10 ∧ ∀ row ∈ rows, row.length = 2 ∧ ∀ v ∈ row, InUnit v := by
  refine C20_float_default "C" (by simp [bands]) _ rfl _ ?_
  intro g hg k _
  rcases List.mem_cons.mp hg with rfl | hg
  · exact ⟨30, Ieee.voflit 30 (by norm_num)⟩
  rcases List.mem_cons.mp hg with rfl | hg
  · exact ⟨-2, by show val (-(2 : Binary64)) = _; rw [Ieee.vneg, Ieee.voflit 2 (by norm_num)]; rfl⟩
  · cases hg

/-! ## C21 -/

theorem argmaxGo_val (ys : List α) (best : α) (bi i : Nat) :
    argmaxGo best bi i ys = argmaxGo (val best) bi i (ys.map val) := by
  have hn : ∀ a : α, isnan a = isnan (val a) := fun a => by
    show (!(PyFloat.eq a a)) = !(XR.eq _ _)
    rw [val_eq]
  induction ys generalizing best bi i with
  | nil => rfl
  | cons y ys ih =>
    have hl : (y <=. best) = (val y <=. val best) := val_le y best
    rw [List.map_cons]
    unfold argmaxGo
    rw [hn best, hl, ih best, ih y]

theorem argmaxPlus1_val (l : List α) : argmaxPlus1 l = argmaxPlus1 (l.map val) := by
  cases l with
  | nil => rfl
  | cons x xs => exact congrArg (· + 1) (argmaxGo_val xs x 0 1)

/-- C21 with rounding: the category at each gate is the first best of the scores that the same call returns with `return_scores=True`,
NaN scores counting as best; nothing is assumed about the inputs or the weights. -/
theorem C21_float_first_best (A : SummerArgs α) (I : Inputs α) (shape : List Nat) (cats : List Nat)
    (hret : A.returnScores = false) (h : csuFhcSummer A I = .ok (some (.hid shape cats))) :
    ∃ shape' scores, csuFhcSummer { A with returnScores := true } I = .ok (some (.scores shape' scores)) ∧
      ∀ i, i < cats.length → FirstBestX (scores.map (fun row => val (row.getD i PyFloat.nan))) (cats.getD i 0) := by
  unfold csuFhcSummer at h
  cases hr : summerRows A I with
  | error e => rw [hr] at h; cases h
  | ok o =>
    rw [hr] at h
    rcases o with _ | ⟨dz, rows⟩
    · cases h
    · obtain ⟨h1, h2⟩ := summerRows_length hr
      simp only [bind, Except.bind, hret, Bool.false_eq_true, if_false] at h
      split_ifs at h with h3
      simp only [Except.ok.injEq, Option.some.injEq, Out.hid.injEq] at h
      have hr' : summerRows { A with returnScores := true } I = .ok (some (dz, rows)) := hr
      refine ⟨A.nTypes :: dz.shape, rows, ?_, ?_⟩
      · unfold csuFhcSummer
        rw [hr']
        simp only [bind, Except.bind]
        rw [if_neg h3]; rfl
      · intro i hi
        have hlen : cats.length = dz.data.length := by rw [← h.2]; simp [classify]
        have : cats.getD i 0 = argmaxPlus1 (column rows i) := by
          rw [← h.2]; simp [classify, List.getD, hlen ▸ hi]
        rw [this, argmaxPlus1_val]
        have e : (column rows i).map val = rows.map (fun row => val (row.getD i PyFloat.nan)) := by
          simp only [column, List.map_map]; rfl
        rw [← e]
        exact argmaxPlus1_spec _ (by intro hc; have := congrArg List.length hc; simp [column, h2] at this)

/-- C21 with rounding: on finite gates with usable weights a category is returned, and it is the first largest of ten numbers in `[0,1]`
that the same call returns as scores. -/
theorem C21_float_finite (A : SummerArgs α) (I : Inputs α) (P : Key → Bool) (gs : List (Key → α))
    (hybrid : Bool) (hA : GoodCall A P hybrid) (hn : A.nTypes = 10) (hret : A.returnScores = false) (hf : Moderate A.tempFactor)
    (hw : GoodWeightsF hybrid P A.useTemp A.weights) (htrap : hybrid = false → A.useTrap = false)
    (hx : ∀ g ∈ gs, ∀ k, P k = true → IsFinite (g k)) (h : IsGates I P gs) :
    ∃ shape cats shape' scores, csuFhcSummer A I = .ok (some (.hid shape cats)) ∧ cats.length = gs.length ∧
      csuFhcSummer { A with returnScores := true } I = .ok (some (.scores shape' scores)) ∧
      ∀ i, i < gs.length → ∃ s : List ℝ, s.length = 10 ∧ scores.map (fun row => val (row.getD i PyFloat.nan)) = s.map .fin ∧
        (∀ x ∈ s, 0 ≤ x ∧ x ≤ 1) ∧ FirstBest s (cats.getD i 0) := by
  obtain ⟨dz, _, h2⟩ := summer_gates hA hn (noZeroWidth_summerF hA.band hf) h
  simp only [hret, Bool.false_eq_true, if_false] at h2
  obtain ⟨shape', scores, h3, h4⟩ := C21_float_first_best A I _ _ hret h2
  refine ⟨_, _, shape', scores, h2, by simp, h3, ?_⟩
  intro i hi
  obtain ⟨sh, rows, e1, e2, e3⟩ := C20_float { A with returnScores := true } I P gs hybrid ⟨hA.band, hA.method, hA.dz, hA.lin, hA.linT⟩
    hn rfl hf hw htrap hx h
  rw [h3] at e1
  cases e1
  have hs : ∃ s : List ℝ, s.length = 10 ∧ scores.map (fun row => val (row.getD i PyFloat.nan)) = s.map .fin ∧ ∀ x ∈ s, 0 ≤ x ∧ x ≤ 1 := by
    have : ∀ rows : List (List α), (∀ row ∈ rows, row.length = gs.length ∧ ∀ v ∈ row, InUnit v) →
        ∃ s : List ℝ, s.length = rows.length ∧ rows.map (fun row => val (row.getD i PyFloat.nan)) = s.map .fin ∧ ∀ x ∈ s, 0 ≤ x ∧ x ≤ 1 := by
      intro rows
      induction rows with
      | nil => intro _; exact ⟨[], rfl, rfl, by simp⟩
      | cons row rows ih =>
        intro hr
        obtain ⟨s, s1, s2, s3⟩ := ih (fun r hr' => hr r (by simp [hr']))
        obtain ⟨l, u⟩ := hr row (by simp)
        have hi' : i < row.length := by omega
        obtain ⟨x, x1, x2, x3⟩ := u row[i] (List.getElem_mem hi')
        refine ⟨x :: s, by simp [s1], ?_, ?_⟩
        · simp only [List.map_cons, s2]
          congr 1
          rw [List.getD, List.getElem?_eq_getElem hi']
          exact x1
        · intro y hy
          rcases List.mem_cons.mp hy with rfl | hy
          · exact ⟨x2, x3⟩
          · exact s3 y hy
    obtain ⟨s, s1, s2⟩ := this scores e3
    exact ⟨s, s1.trans e2, s2⟩
  obtain ⟨s, s1, s2, s3⟩ := hs
  refine ⟨s, s1, s2, s3, ?_⟩
  have h5 := h4 i (by simpa using hi)
  rw [s2] at h5
  have hne : s ≠ [] := by intro e; rw [e] at s1; simp at s1
  obtain ⟨f1, f2, f3⟩ := h5
  rw [List.length_map] at f2
  have hget : ∀ j, j < s.length → (s.map XR.fin).getD j XR.nan = .fin (s.getD j 0) := by
    intro j hj; simp [List.getD, hj]
  refine ⟨f1, f2, ?_⟩
  rcases f3 with ⟨g1, -⟩ | ⟨-, g2, g3⟩
  · rw [hget _ (by omega)] at g1; cases g1
  · constructor
    · intro j hj
      have := g2 j (by simpa using hj)
      rw [hget _ hj, hget _ (by omega)] at this
      simpa using this
    · intro j hj
      have := g3 j hj
      rw [hget _ (by omega), hget _ (by omega)] at this
      simpa [XR.lt] using this

/-! ## C31 and the melting-layer classifier -/

theorem noZeroWidth_winterF {band : String} (hb : band ∈ bands) {f : α} (hf : Moderate f) : NoZeroWidth α .winter band f := by
  obtain ⟨φ, h1, h2, h3⟩ := hf
  refine noZeroWidth_float h1 h2 h3 ?_
  intro k rows r hr hmem
  by_cases hk : k = .RH ∨ k = .LD
  · obtain ⟨rows', e1, _, e3⟩ := C19_winter_nan band hb k hk
    rw [e1] at hr; cases hr
    exact Or.inr (e3 r hmem).2
  · obtain ⟨rows', e1, _, e3⟩ := C19_winter band hb k (by simpa [not_or] using hk)
    rw [e1] at hr; cases hr
    exact Or.inl (e3 r hmem)

theorem noZeroWidth_mlF {band : String} (hb : band ∈ bands) {f : α} (hf : Moderate f) : NoZeroWidth α .ml band f := by
  obtain ⟨φ, h1, h2, h3⟩ := hf
  refine noZeroWidth_float h1 h2 h3 ?_
  intro k rows r hr hmem
  obtain ⟨rows', e1, _, e3⟩ := C19_ml band hb k
  rw [e1] at hr; cases hr
  exact Or.inl (e3 r hmem)

/-- C31 with rounding: the scores of the winter classifier are numbers in `[0,1]`. -/
theorem C31_float (A : WinterArgs α) (I : Inputs α) (P : Key → Bool) (gs : List (Key → α)) (hybrid : Bool) (hA : GoodWinter A P hybrid)
    (hR : P .RH = false) (hL : P .LD = false) (hf : Moderate A.tempFactor)
    (hw : ∀ c ∈ winterTypes A.warm, GoodWeightsF hybrid P A.useTemp (fun k => A.weights k c))
    (hx : ∀ g ∈ gs, ∀ k, P k = true → IsFinite (g k)) (h : IsGates I P gs) :
    ∃ shape rows, csuFhcWinter A I = .ok (some (shape, rows)) ∧ rows.length = (if A.warm then 2 else 4) ∧
      ∀ row ∈ rows, row.length = gs.length ∧ ∀ v ∈ row, InUnit v := by
  obtain ⟨dz, _, h2⟩ := winter_gates hA (noZeroWidth_winterF hA.band hf) h
  refine ⟨_, _, h2, by cases A.warm <;> rfl, ?_⟩
  intro row hrow
  obtain ⟨c, hc, rfl⟩ := List.mem_map.mp hrow
  refine ⟨by simp, ?_⟩
  intro v hv
  obtain ⟨g, hg, rfl⟩ := List.mem_map.mp hv
  exact gScore_table (goodAt_winter hA.band P hR hL c (winterTypes_lt _ c hc)) hf hA.dz (fun _ => rfl) (hw c hc) hA.linT (hx g hg)

/-- the default winter weights are exact in every format -/
theorem winterWeights_val (k : Key) (c : Nat) : val (winterWeights k c : α) = .fin (winterW k c) := by
  have g : ∀ (l : List α) (r : List ℝ), List.Forall₂ (fun a x => val a = .fin x) l r → val (l.getD c 0) = .fin (r.getD c 0) := by
    intro l r h
    induction h generalizing c with
    | nil => exact Ieee.vzero
    | cons hx _ ih => cases c with
      | zero => exact hx
      | succ c => exact ih c
  have e : ∀ n : ℕ, [n.AtLeastTwo] → |(n : ℤ)| ≤ 2 ^ 24 → val (OfNat.ofNat n : α) = .fin (OfNat.ofNat n) := fun n _ => Ieee.voflit n
  cases k <;> refine g _ _ ?_ <;>
    repeat' first | exact List.Forall₂.nil | refine List.Forall₂.cons ?_ ?_ | exact Ieee.vzero | exact e _ (by norm_num)

/-- C31 with rounding, for the default call: reflectivity and temperature with differential reflectivity and/or specific phase. -/
theorem C31_float_default (band : String) (hb : band ∈ bands) (warm : Bool) (P : Key → Bool) (hP : P .DZ = true)
    (hpol : P .DR = true ∨ P .KD = true) (hR : P .RH = false) (hL : P .LD = false) (gs : List (Key → α))
    (hx : ∀ g ∈ gs, ∀ k, P k = true → IsFinite (g k)) :
    ∃ shape rows, csuFhcWinter ({ band := band, warm := warm } : WinterArgs α) (inputsOf P gs) = .ok (some (shape, rows)) ∧
      rows.length = (if warm then 2 else 4) ∧ ∀ row ∈ rows, row.length = gs.length ∧ ∀ v ∈ row, InUnit v := by
  refine C31_float { band := band, warm := warm } _ P gs false ⟨hb, by show methodOf "linear" = _; decide, hP, ?_, fun _ _ => rfl⟩ hR hL
    moderate_one ?_ hx (isGates_inputsOf _ _)
  · intro _
    rcases hpol with h | h
    · exact List.ne_nil_of_mem (List.mem_filter.mpr ⟨by simp [pol], h⟩)
    · exact List.ne_nil_of_mem (List.mem_filter.mpr ⟨by simp [pol], h⟩)
  · intro c hc
    refine ⟨fun k => winterW k c, fun k => winterWeights_val k c, ?_, goodWeights_winter P true hP warm c hc⟩
    intro k
    have hc6 := winterTypes_lt warm c hc
    rcases (show c = 0 ∨ c = 1 ∨ c = 2 ∨ c = 3 ∨ c = 4 ∨ c = 5 by omega) with rfl | rfl | rfl | rfl | rfl | rfl <;>
      cases k <;> norm_num [winterW]

/-- the scores of the melting-layer classifier with rounding are numbers in `[0,1]` -/
theorem C106_ml_scores (A : MlArgs α) (I : Inputs α) (P : Key → Bool) (gs : List (Key → α)) (hybrid : Bool) (hA : GoodMl A P hybrid)
    (hn : A.nTypes = 2) (hf : Moderate A.tempFactor)
    (hw : ∀ c < 2, GoodWeightsF hybrid P A.useTemp (fun k => A.weights k c))
    (hx : ∀ g ∈ gs, ∀ k, P k = true → IsFinite (g k)) (h : IsGates I P gs) :
    ∃ shape rows, csuFhcMl A I = .ok (some (shape, rows)) ∧ rows.length = 2 ∧
      ∀ row ∈ rows, row.length = gs.length ∧ ∀ v ∈ row, InUnit v := by
  obtain ⟨dz, _, h2⟩ := ml_gates hA hn (noZeroWidth_mlF hA.band hf) h
  refine ⟨_, _, h2, rfl, ?_⟩
  intro row hrow
  obtain ⟨c, hc, rfl⟩ := List.mem_map.mp hrow
  refine ⟨by simp, ?_⟩
  intro v hv
  obtain ⟨g, hg, rfl⟩ := List.mem_map.mp hv
  have hc' : c < 2 := by simp at hc; omega
  exact gScore_table (goodAt_ml hA.band P c hc') hf hA.dz (fun _ => rfl) (hw c hc') hA.linT (hx g hg)

/-- ... for the default call (and, with `use_temp=False`, for the call made by `run_winter`): finite reflectivity and differential
reflectivity and/or correlation -/
theorem C106_ml_default (band : String) (hb : band ∈ bands) (u : Bool) (P : Key → Bool) (hP : P .DZ = true)
    (hpol : P .DR = true ∨ P .RH = true) (hT : P .T = true → u = true) (gs : List (Key → α))
    (hx : ∀ g ∈ gs, ∀ k, P k = true → IsFinite (g k)) :
    ∃ shape rows, csuFhcMl ({ band := band, useTemp := u } : MlArgs α) (inputsOf P gs) = .ok (some (shape, rows)) ∧
      rows.length = 2 ∧ ∀ row ∈ rows, row.length = gs.length ∧ ∀ v ∈ row, InUnit v := by
  refine C106_ml_scores { band := band, useTemp := u } _ P gs false ⟨hb, by show methodOf "linear" = _; decide, hP, ?_, fun _ => hT⟩ rfl
    moderate_one ?_ hx (isGates_inputsOf _ _)
  · intro _
    rcases hpol with h | h
    · exact List.ne_nil_of_mem (List.mem_filter.mpr ⟨by simp [pol], h⟩)
    · exact List.ne_nil_of_mem (List.mem_filter.mpr ⟨by simp [pol], h⟩)
  · intro c _
    refine ⟨fun k => match k with | .DZ => 4 | .DR => 7 | .RH => 14 | _ => 0, ?_, ?_, ?_, by simp, fun _ => ⟨.DZ, hP, by simp, by norm_num⟩⟩
    · intro k
      cases k
      · exact Ieee.voflit 4 (by norm_num)
      · exact Ieee.voflit 7 (by norm_num)
      · exact Ieee.vzero
      · exact Ieee.voflit 14 (by norm_num)
      · exact Ieee.vzero
      · exact Ieee.vzero
    · intro k; cases k <;> norm_num
    · intro k; cases k <;> norm_num

/-- binary32: the call made by `run_winter` on two gates -/
example : ∃ shape rows, csuFhcMl ({ useTemp := false } : MlArgs Binary32)
      (inputsOf (fun k => k == .DZ || k == .DR || k == .RH) [fun _ => 30, fun _ => 1]) = .ok (some (shape, rows)) ∧
      rows.length = 2 ∧ ∀ row ∈ rows, row.length = 2 ∧ ∀ v ∈ row, InUnit v := by
  refine C106_ml_default "S" (by simp [bands]) false _ rfl (Or.inl rfl) (by decide) _ ?_
  intro g hg k _
  rcases List.mem_cons.mp hg with rfl | hg
  · exact ⟨30, Ieee.voflit 30 (by norm_num)⟩
  rcases List.mem_cons.mp hg with rfl | hg
  · exact ⟨1, Ieee.vone⟩
  · cases hg

/-- binary64: a default winter call on two gates -/
example : ∃ shape rows, csuFhcWinter ({ band := "X", warm := false } : WinterArgs Binary64)
      (inputsOf (fun k => k == .DZ || k == .KD || k == .T) [fun _ => 30, fun _ => 1]) = .ok (some (shape, rows)) ∧
      rows.length = 4 ∧ ∀ row ∈ rows, row.length = 2 ∧ ∀ v ∈ row, InUnit v := by
  refine C31_float_default "X" (by simp [bands]) false _ rfl (Or.inr rfl) rfl rfl _ ?_
  intro g hg k _
  rcases List.mem_cons.mp hg with rfl | hg
  · exact ⟨30, Ieee.voflit 30 (by norm_num)⟩
  rcases List.mem_cons.mp hg with rfl | hg
  · exact ⟨1, Ieee.vone⟩
  · cases hg

end Csu.Fhc
