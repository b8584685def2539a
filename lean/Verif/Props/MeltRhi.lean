import Verif.Props.Melt
/-!
# C36: the melting height of RHIs and grids
-/
namespace Csu
open PyFloat XR

theorem npSort_fin (l : List ℝ) : npSort (l.map fin) = (l.mergeSort (fun a b => decide (a ≤ b))).map fin := by
  unfold npSort
  rw [List.map_mergeSort]
  intro a _ b _
  simp [npLe]

/-- the median of a non-empty list of finite numbers -/
theorem npMedian_fin (l : List ℝ) (h : l ≠ []) : ∃ m, npMedian (l.map fin) = fin m ∧ WinterSpec.IsMedian l m := by
  set s := l.mergeSort (fun a b => decide (a ≤ b)) with hs
  have hlen : s.length = l.length := by rw [hs]; exact List.length_mergeSort _
  have hpos : 0 < l.length := List.length_pos_iff.mpr h
  have hperm : s.Perm l := List.mergeSort_perm _ _
  have hsort : s.Pairwise (· ≤ ·) := by
    have := List.pairwise_mergeSort (le := fun a b : ℝ => decide (a ≤ b))
      (by intro a b c; simp only [decide_eq_true_eq]; exact le_trans)
      (by intro a b; simp only [Bool.or_eq_true, decide_eq_true_eq]; exact le_total a b) l
    exact this.imp (by intro a b h; simpa using h)
  have h0 : (l.map fin).any isnan = false := by
    rw [List.any_eq_false]; intro x hx; obtain ⟨r, _, rfl⟩ := List.mem_map.mp hx; simp
  unfold npMedian
  rw [h0, npSort_fin, ← hs]
  simp only [Bool.false_eq_true, if_false, List.length_map]
  rw [if_neg (by omega)]
  have g : ∀ k (hk : k < s.length), (s.map fin).getD k PyFloat.nan = fin s[k] := by
    intro k hk; simp [List.getD, hk]
  by_cases ho : l.length % 2 = 1
  · rw [if_pos ho, g _ (by omega)]
    refine ⟨_, rfl, s, hperm, hsort, s[l.length / 2]'(by omega), s[l.length / 2]'(by omega), ?_, ?_, by ring⟩
    · rw [show (s.length - 1) / 2 = l.length / 2 by omega]; exact List.getElem?_eq_getElem (by omega)
    · rw [show s.length / 2 = l.length / 2 by omega]; exact List.getElem?_eq_getElem (by omega)
  · rw [if_neg ho, g _ (by omega), g _ (by omega)]
    have h2 : (2 : XR) = fin 2 := by simp
    rw [fadd, h2, fdiv two_ne_zero]
    refine ⟨_, rfl, s, hperm, hsort, s[l.length / 2 - 1]'(by omega), s[l.length / 2]'(by omega), ?_, ?_, rfl⟩
    · rw [show (s.length - 1) / 2 = l.length / 2 - 1 by omega]; exact List.getElem?_eq_getElem (by omega)
    · rw [show s.length / 2 = l.length / 2 by omega]; exact List.getElem?_eq_getElem (by omega)

/-- the specification of the median determines it -/
theorem WinterSpec.IsMedian.unique {l : List ℝ} {m m' : ℝ} (h : WinterSpec.IsMedian l m)
    (h' : WinterSpec.IsMedian l m') : m = m' := by
  obtain ⟨s, p, q, a, b, e1, e2, rfl⟩ := h
  obtain ⟨s', p', q', a', b', e1', e2', rfl⟩ := h'
  have : s = s' := (p.trans p'.symm).eq_of_pairwise (le := (· ≤ ·)) (fun a b _ _ => le_antisymm) q q'
  subst this
  rw [e1] at e1'; rw [e2] at e2'
  cases e1'; cases e2'; rfl

namespace Fhc

theorem maskGet_map {ι β : Type} (l : List ι) (p : ι → Bool) (f : ι → β) :
    maskGet (l.map p) (l.map f) = (l.filter p).map f := by
  induction l with
  | nil => rfl
  | cons x xs ih =>
    unfold maskGet at ih ⊢
    cases h : p x <;> simp [h, ih]

theorem mlHeights_fin (ps : List (Int × ℝ)) (e : ℝ) :
    mlHeights (ps.map (·.1)) ((ps.map (·.2)).map fin) (some (fin e)) =
      (WinterSpec.nearWetSnow (ps.map (·.1)) (ps.map (·.2)) e).map fin := by
  have hp : ∀ f : XR → Bool, ((ps.map (·.2)).map fin).map f = ps.map (fun p => f (fin p.2)) := by
    intro f; simp
  have hq : (ps.map (·.1)).map (· == (2 : Int)) = ps.map (fun p => p.1 == 2) := by simp
  have hr : (ps.map (·.2)).map fin = ps.map (fun p => fin p.2) := by simp
  have h15 : (1.5 : XR) = fin 1.5 := by simp
  simp only [mlHeights, hp, hq, logicalAnd_map]
  rw [hr, maskGet_map]
  unfold WinterSpec.nearWetSnow
  have hz : (ps.map (·.1)).zip (ps.map (·.2)) = ps := by
    rw [List.zip_map', List.map_id']
  rw [hz, h15]
  simp only [fadd, fsub, fle, fge]
  rw [List.map_filterMap]
  rw [← List.filterMap_eq_map, ← List.filterMap_eq_filter, List.filterMap_filterMap]
  apply List.filterMap_congr
  intro p _
  have : (|p.2 - e| ≤ 1.5) ↔ (p.2 ≤ e + 1.5 ∧ e - 1.5 ≤ p.2) := by
    rw [abs_le]; constructor <;> rintro ⟨a, b⟩ <;> constructor <;> linarith
  by_cases h1 : p.1 = 2 <;> by_cases h2 : |p.2 - e| ≤ 1.5
  · simp [Option.guard, h1, h2, this.mp h2]
  · have h3 := fun a b => h2 (this.mpr ⟨a, b⟩)
    simp only [Option.guard, h1, h2]
    simp
    intro a; by_contra hb; exact h3 a (by linarith [not_lt.mp hb])
  · simp [Option.guard, h1]
  · simp [Option.guard, h1]

/-- does printing the statistics raise? (`verbose` with a SciPy whose `stats.mode` returns scalars) -/
def Env.breaks (env : Env) : Bool := env.verbose && !env.modeIsArray

theorem splitRhi_get? {α : Type} [PyFloat α] (height : List α) (m : α) (i : Nat) (h : α) (hi : height[i]? = some h) :
    ∃ lev, splitRhi height (some m) = .ok lev ∧ lev[i]? = some (if h >. m then 2 else if h <. m then 0 else 1) := by
  refine ⟨_, rfl, ?_⟩
  simp only [maskSet_get?, List.getElem?_map, hi, Option.map_some]

/-- C36, in any arithmetic and for every input: the levels returned are consistent with the height returned: a gate is
cold (2) above it, warm (0) below it and melting (1) otherwise. -/
theorem C36_split {α : Type} [PyFloat α] (env : Env) (fh : List Int) (height : List α) (e : Option α) (lev : List Nat)
    (m : α) (h : getMlRhi env fh height e = .ok (lev, m)) :
    lev.length = height.length ∧ ∀ (i : Nat) (x : α), height[i]? = some x →
      lev[i]? = some (if x >. m then 2 else if x <. m then 0 else 1) := by
  refine ⟨length_getMlRhi h, ?_⟩
  intro i x hx
  simp only [getMlRhi, bind, Except.bind] at h
  split at h
  · cases h
  · rename_i o _
    cases o with
    | none => simp [splitRhi] at h
    | some v =>
      obtain ⟨lev', h1, h2⟩ := splitRhi_get? height v i x hx
      rw [h1] at h
      simp only [Except.ok.injEq, Prod.mk.injEq] at h
      rw [← h.1, ← h.2]; exact h2

/-- C36 for finite heights and a finite expected height: the melting height is the median of the wet-snow heights within
1.5 of the expected height if there are more than 10 of them, and the expected height otherwise; each gate is 0 below,
2 above and 1 at that height. -/
theorem C36_rhi (env : Env) (codes : List Int) (hs : List ℝ) (e : ℝ) (hl : codes.length = hs.length)
    (henv : env.breaks = false) :
    ∃ lev m, getMlRhi env codes (hs.map fin) (some (fin e)) = .ok (lev, fin m) ∧
      (10 < (WinterSpec.nearWetSnow codes hs e).length → WinterSpec.IsMedian (WinterSpec.nearWetSnow codes hs e) m) ∧
      ((WinterSpec.nearWetSnow codes hs e).length ≤ 10 → m = e) ∧
      lev = hs.map (fun h => WinterSpec.level h m) := by
  obtain ⟨ps, h1, h2⟩ : ∃ ps : List (Int × ℝ), codes = ps.map (·.1) ∧ hs = ps.map (·.2) := by
    refine ⟨codes.zip hs, ?_, ?_⟩
    · rw [List.map_fst_zip]; omega
    · rw [List.map_snd_zip]; omega
  have hz : mlHeights codes (hs.map fin) (some (fin e)) = (WinterSpec.nearWetSnow codes hs e).map fin := by
    rw [h1, h2]; exact mlHeights_fin ps e
  set z := WinterSpec.nearWetSnow codes hs e
  have hfin : (z.map fin).any (fun h => !npIsFinite h) = false := by
    rw [List.any_eq_false]; intro x hx; obtain ⟨r, _, rfl⟩ := List.mem_map.mp hx
    simp [npIsFinite]
  have hlev : ∀ m : ℝ, splitRhi (hs.map fin) (some (fin m)) = .ok (hs.map (fun h => WinterSpec.level h m)) := by
    intro m
    simp only [splitRhi, List.map_map, maskSet_map]
    congr 1
    apply List.map_congr_left
    intro h _
    simp only [Function.comp, flt, fgt, decide_eq_true_eq, WinterSpec.level]
    split_ifs <;> first | rfl | (exfalso; linarith)
  unfold getMlRhi mlHeightRhi
  rw [hz]
  dsimp only
  rw [hfin]
  unfold Env.breaks at henv
  rw [henv]
  simp only [List.length_map]
  by_cases hn : z.length > 10
  · obtain ⟨m, hm, hmed⟩ := npMedian_fin z (by intro e; rw [e] at hn; simp at hn)
    refine ⟨hs.map (fun h => WinterSpec.level h m), m, ?_, fun _ => hmed, fun h => by omega, rfl⟩
    simp only [if_pos hn, Bool.false_eq_true, if_false, hm, bind, Except.bind, hlev]
  · refine ⟨hs.map (fun h => WinterSpec.level h e), e, ?_, fun h => absurd h hn, fun _ => rfl, rfl⟩
    simp only [if_neg hn, bind, Except.bind, hlev]

/-- C36, a limit of the code: with `verbose` (the default of `run_winter`) and a SciPy whose `stats.mode` returns scalars,
every call that finds a melting layer raises. -/
theorem C36_verbose_raises (env : Env) (codes : List Int) (hs : List ℝ) (e : ℝ) (hl : codes.length = hs.length)
    (henv : env.breaks = true) (hn : 10 < (WinterSpec.nearWetSnow codes hs e).length) :
    getMlRhi env codes (hs.map fin) (some (fin e)) = .error .indexError := by
  obtain ⟨ps, h1, h2⟩ : ∃ ps : List (Int × ℝ), codes = ps.map (·.1) ∧ hs = ps.map (·.2) := by
    refine ⟨codes.zip hs, ?_, ?_⟩
    · rw [List.map_fst_zip]; omega
    · rw [List.map_snd_zip]; omega
  have hz : mlHeights codes (hs.map fin) (some (fin e)) = (WinterSpec.nearWetSnow codes hs e).map fin := by
    rw [h1, h2]; exact mlHeights_fin ps e
  set z := WinterSpec.nearWetSnow codes hs e
  have hfin : (z.map fin).any (fun h => !npIsFinite h) = false := by
    rw [List.any_eq_false]; intro x hx; obtain ⟨r, _, rfl⟩ := List.mem_map.mp hx
    simp [npIsFinite]
  unfold Env.breaks at henv
  unfold getMlRhi mlHeightRhi
  rw [hz]
  dsimp only
  rw [hfin, henv]
  simp only [List.length_map, if_pos hn, Bool.false_eq_true, if_false, if_true, bind, Except.bind]

theorem mlHeights_none {α : Type} [PyFloat α] (codes : List Int) (height : List α) :
    mlHeights codes height none = WinterSpec.wetSnow codes height := by
  unfold mlHeights WinterSpec.wetSnow maskGet
  dsimp only
  rw [List.zip_map_left, List.filterMap_map]
  congr 1
  funext p
  simp

/-- C36: without an expected height, a volume with at most 10 wet-snow gates raises, in any arithmetic. -/
theorem C36_no_expected {α : Type} [PyFloat α] (env : Env) (codes : List Int) (height : List α)
    (hn : (WinterSpec.wetSnow codes height).length ≤ 10) : getMlRhi env codes height none = .error .typeError := by
  rw [← mlHeights_none] at hn
  unfold getMlRhi mlHeightRhi
  simp only [if_neg (Nat.not_lt.mpr hn), bind, Except.bind, splitRhi]

/-- C36: without an expected height, a volume with more than 10 wet-snow gates gets the median of their heights as melting
height, and the levels follow it. -/
theorem C36_rhi_no_expected (env : Env) (codes : List Int) (hs : List ℝ) (henv : env.breaks = false)
    (hn : 10 < (WinterSpec.wetSnow codes hs).length) :
    ∃ lev m, getMlRhi env codes (hs.map fin) none = .ok (lev, fin m) ∧
      WinterSpec.IsMedian (WinterSpec.wetSnow codes hs) m ∧ lev = hs.map (fun h => WinterSpec.level h m) := by
  have hz : mlHeights codes (hs.map fin) none = (WinterSpec.wetSnow codes hs).map fin := by
    rw [mlHeights_none]
    unfold WinterSpec.wetSnow
    rw [List.zip_map_right, List.filterMap_map, List.map_filterMap]
    congr 1
    funext p
    by_cases h : p.1 = 2 <;> simp [h]
  set z := WinterSpec.wetSnow codes hs
  have hfin : (z.map fin).any (fun h => !npIsFinite h) = false := by
    rw [List.any_eq_false]; intro x hx; obtain ⟨r, _, rfl⟩ := List.mem_map.mp hx
    simp [npIsFinite]
  have hlev : ∀ m : ℝ, splitRhi (hs.map fin) (some (fin m)) = .ok (hs.map (fun h => WinterSpec.level h m)) := by
    intro m
    simp only [splitRhi, List.map_map, maskSet_map]
    congr 1
    apply List.map_congr_left
    intro h _
    simp only [Function.comp, flt, fgt, decide_eq_true_eq, WinterSpec.level]
    split_ifs <;> first | rfl | (exfalso; linarith)
  obtain ⟨m, hm, hmed⟩ := npMedian_fin z (by intro e; rw [e] at hn; simp at hn)
  refine ⟨_, m, ?_, hmed, rfl⟩
  unfold getMlRhi mlHeightRhi
  rw [hz]
  dsimp only
  rw [hfin]
  unfold Env.breaks at henv
  rw [henv]
  simp only [List.length_map, if_pos hn, Bool.false_eq_true, if_false, hm, bind, Except.bind, hlev]

example : 10 < (WinterSpec.wetSnow (List.replicate 12 2) (List.replicate 12 (3 : ℝ))).length := by
  simp [WinterSpec.wetSnow, List.replicate]

example : ∃ lev m, getMlRhi ⟨false, false⟩ (List.replicate 12 2) ((List.replicate 12 (3 : ℝ)).map fin) (some (fin 4)) =
    .ok (lev, fin m) ∧ m = 3 ∧ lev = List.replicate 12 1 := by
  have hz : WinterSpec.nearWetSnow (List.replicate 12 2) (List.replicate 12 (3 : ℝ)) 4 = List.replicate 12 3 := by
    unfold WinterSpec.nearWetSnow
    have : (2 : Int) = 2 ∧ |(3 : ℝ) - 4| ≤ 1.5 := ⟨rfl, by rw [abs_le]; norm_num⟩
    simp [List.replicate, this]
  obtain ⟨lev, m, h1, h2, _, h4⟩ := C36_rhi ⟨false, false⟩ (List.replicate 12 2) (List.replicate 12 (3 : ℝ)) 4
    (by simp) rfl
  rw [hz] at h2
  have hm : m = 3 := by
    obtain ⟨s, p, _, a, b, ha, hb, e⟩ := h2 (by simp)
    have hs := List.perm_replicate.mp p
    rw [hs] at ha hb
    simp at ha hb
    rw [e, ← ha, ← hb]; norm_num
  refine ⟨lev, m, h1, hm, ?_⟩
  rw [h4, hm]
  simp [WinterSpec.level]

end Fhc
end Csu
