import Verif.Model.LiquidIce
import Verif.Lemmas.Lists
import Verif.XReal
import Mathlib.Data.List.Perm.Basic
import Mathlib.Tactic.Linarith
/-!
# Properties C58, C83: freezing altitude of a sounding

A sounding is a list of levels `(T, z)`.  `argsort` is an arbitrary function that returns a permutation of the indices
sorting the altitudes (what `np.argsort` promises); `polyfit1` is arbitrary.
-/
namespace Csu.LiquidIce
open Csu PyFloat Csu.Common XR

/-- temperatures of a sounding -/
def temps (s : List (ℝ × ℝ)) : List XR := s.map (fun p => fin p.1)
/-- altitudes of a sounding -/
def alts (s : List (ℝ × ℝ)) : List XR := s.map (fun p => fin p.2)

/-- what `np.argsort` promises for this sounding: a permutation of the indices that sorts the altitudes -/
def Argsorts (argsort : List XR → List Nat) (s : List (ℝ × ℝ)) : Prop :=
  (argsort (alts s)).Perm (List.range s.length) ∧
  ((argsort (alts s)).map (fun i => (s.getD i (0, 0)).2)).Pairwise (· ≤ ·)

/-- `h` is where the straight line between two vertically adjacent levels of opposite sign crosses 0 -/
def Crossing (s : List (ℝ × ℝ)) (h : ℝ) : Prop :=
  ∃ a ∈ s, ∃ b ∈ s, a.2 < b.2 ∧ (∀ c ∈ s, ¬ (a.2 < c.2 ∧ c.2 < b.2)) ∧ a.1 * b.1 < 0 ∧
    h = a.2 + (0 - a.1) * (b.2 - a.2) / (b.1 - a.1)

/-- the highest crossing -/
def HighestCrossing (s : List (ℝ × ℝ)) (h : ℝ) : Prop := Crossing s h ∧ ∀ h', Crossing s h' → h' ≤ h

/-- C83, full statement. -/
def InterpolatesHighestCrossing : Prop :=
  ∀ (argsort : List XR → List Nat) (polyfit1 : List XR → List XR → XR) (s : List (ℝ × ℝ)),
    Argsorts argsort s → (s.map (·.2)).Nodup → (∀ p ∈ s, p.1 ≠ 0) → (∃ p ∈ s, 0 < p.1) → (∃ p ∈ s, p.1 < 0) →
    ∃ h, getFreezingAltitude argsort polyfit1 (temps s) (alts s) = .ok (some (fin h)) ∧ HighestCrossing s h

/-! ## Maxima and minima -/

theorem npMax_fin (x : ℝ) (xs : List ℝ) :
    ∃ m, npMax (fin x) (xs.map fin) = fin m ∧ m ∈ x :: xs ∧ ∀ y ∈ x :: xs, y ≤ m := by
  induction xs generalizing x with
  | nil => exact ⟨x, rfl, by simp, by simp⟩
  | cons y ys ih =>
    simp only [npMax, List.map_cons, List.foldl_cons, fge, fisnan, Bool.or_false, decide_eq_true_eq]
    split
    next h =>
      obtain ⟨m, e, hm, hle⟩ := ih x
      refine ⟨m, e, ?_, ?_⟩
      · rcases List.mem_cons.mp hm with rfl | hm <;> simp_all
      · intro w hw
        rcases List.mem_cons.mp hw with rfl | hw
        · exact hle _ (by simp)
        · rcases List.mem_cons.mp hw with rfl | hw
          · exact h.trans (hle x (by simp))
          · exact hle w (by simp [hw])
    next h =>
      obtain ⟨m, e, hm, hle⟩ := ih y
      refine ⟨m, e, by simp [List.mem_cons.mp hm], ?_⟩
      intro w hw
      rcases List.mem_cons.mp hw with rfl | hw
      · exact (not_le.mp h).le.trans (hle y (by simp))
      · exact hle w hw

theorem npMin_fin (x : ℝ) (xs : List ℝ) :
    ∃ m, npMin (fin x) (xs.map fin) = fin m ∧ m ∈ x :: xs ∧ ∀ y ∈ x :: xs, m ≤ y := by
  induction xs generalizing x with
  | nil => exact ⟨x, rfl, by simp, by simp⟩
  | cons y ys ih =>
    simp only [npMin, List.map_cons, List.foldl_cons, fle, fisnan, Bool.or_false, decide_eq_true_eq]
    split
    next h =>
      obtain ⟨m, e, hm, hle⟩ := ih x
      refine ⟨m, e, ?_, ?_⟩
      · rcases List.mem_cons.mp hm with rfl | hm <;> simp_all
      · intro w hw
        rcases List.mem_cons.mp hw with rfl | hw
        · exact hle _ (by simp)
        · rcases List.mem_cons.mp hw with rfl | hw
          · exact (hle x (by simp)).trans h
          · exact hle w (by simp [hw])
    next h =>
      obtain ⟨m, e, hm, hle⟩ := ih y
      refine ⟨m, e, by simp [List.mem_cons.mp hm], ?_⟩
      intro w hw
      rcases List.mem_cons.mp hw with rfl | hw
      · exact (hle y (by simp)).trans (not_le.mp h).le
      · exact hle w hw

/-! ## argmax -/

theorem argmaxGo_lt {α : Type} [PyFloat α] (ys : List α) (best : α) (bi i : Nat) (h : bi < i) :
    argmaxGo best bi i ys < i + ys.length := by
  induction ys generalizing best bi i with
  | nil => simpa [argmaxGo] using h
  | cons y ys ih =>
    simp only [argmaxGo, List.length_cons]
    split
    · omega
    · split
      · have := ih best bi (i + 1) (by omega); omega
      · have := ih y i (i + 1) (by omega); omega

theorem argmaxGo_increasing (ys : List ℝ) (best : ℝ) (bi i : Nat) (h : (best :: ys).Pairwise (· < ·)) :
    argmaxGo (fin best) bi i (ys.map fin) = if ys = [] then bi else i + ys.length - 1 := by
  induction ys generalizing best bi i with
  | nil => rfl
  | cons y ys ih =>
    rw [List.pairwise_cons] at h
    have hb : best < y := h.1 y (by simp)
    simp only [argmaxGo, List.map_cons, fisnan, fle, not_le.mpr hb, decide_false, Bool.false_eq_true, if_false,
      ih y i (i + 1) h.2, List.length_cons]
    cases ys
    · simp
    · simp; omega

/-! ## np.interp at 0 -/

theorem interp0_between {x0 x1 : ℝ} (y0 y1 : ℝ) :
    ∃ h, interp0 (fin x0) (fin x1) (fin y0) (fin y1) = fin h ∧ min y0 y1 ≤ h ∧ h ≤ max y0 y1 := by
  simp only [interp0, fzero, fgt, flt, fge, feq, decide_eq_true_eq]
  split_ifs with h1 h2 h3 h4 h5 h6
  · exact ⟨y1, rfl, min_le_right _ _, le_max_right _ _⟩
  · exact ⟨y0, rfl, min_le_left _ _, le_max_left _ _⟩
  · exact ⟨y1, rfl, min_le_right _ _, le_max_right _ _⟩
  · exact ⟨y0, rfl, min_le_left _ _, le_max_left _ _⟩
  · exfalso; revert h5
    rw [fsub, fsub, fsub, fdiv (by intro hc; exact h3 (by linarith [lt_of_le_of_ne (not_lt.mp h2) h4])), fmul, fadd]
    simp
  · exfalso; revert h5
    rw [fsub, fsub, fsub, fdiv (by intro hc; exact h3 (by linarith [lt_of_le_of_ne (not_lt.mp h2) h4])), fmul, fadd]
    simp
  · have hx0 : x0 < 0 := lt_of_le_of_ne (not_lt.mp h2) h4
    have hx1 : 0 < x1 := not_le.mp h3
    have hd : 0 < x1 - x0 := by linarith
    rw [fsub, fsub, fsub, fdiv hd.ne', fmul, fadd]
    refine ⟨_, rfl, ?_⟩
    set w := (0 - x0) / (x1 - x0) with hw
    have hw0 : 0 ≤ w := div_nonneg (by linarith) hd.le
    have hw1 : w ≤ 1 := by rw [hw, div_le_one hd]; linarith
    have e : (y1 - y0) / (x1 - x0) * (0 - x0) + y0 = y0 + w * (y1 - y0) := by rw [hw]; ring
    rw [e]
    rcases le_total y0 y1 with h | h
    · rw [min_eq_left h, max_eq_right h]; constructor <;> nlinarith
    · rw [min_eq_right h, max_eq_left h]; constructor <;> nlinarith

theorem interp0_crossing {x0 x1 : ℝ} (y0 y1 : ℝ) (h0 : x0 < 0) (h1 : 0 < x1) :
    interp0 (fin x0) (fin x1) (fin y0) (fin y1) = fin (y0 + (0 - x0) * (y1 - y0) / (x1 - x0)) := by
  have hd : x1 - x0 ≠ 0 := by linarith
  simp only [interp0, fzero, fgt, flt, fge, feq, decide_eq_true_eq]
  rw [if_neg (by linarith), if_neg (by linarith), if_neg (by linarith), if_neg (by linarith)]
  rw [fsub, fsub, fsub, fdiv hd, fmul, fadd]
  rw [if_neg (by simp)]
  congr 1; ring

/-! ## The sorted sounding -/

/-- levels in the order of `argsort` -/
def sorted (argsort : List XR → List Nat) (s : List (ℝ × ℝ)) : List (ℝ × ℝ) :=
  (argsort (alts s)).map (fun i => s.getD i (0, 0))

theorem sorted_perm {argsort : List XR → List Nat} {s : List (ℝ × ℝ)} (h : Argsorts argsort s) :
    (sorted argsort s).Perm s := by
  have : ((List.range s.length).map (fun i => s.getD i (0, 0))) = s := by
    apply List.ext_getElem
    · simp
    · intro i h1 h2; simp at h1; simp [h1]
  have h2 := h.1.map (fun i => s.getD i (0, 0))
  rw [this] at h2
  exact h2

theorem sorted_cols {argsort : List XR → List Nat} {s : List (ℝ × ℝ)} (h : Argsorts argsort s) :
    (argsort (alts s)).map (fun i => (alts s).getD i PyFloat.nan) = alts (sorted argsort s) ∧
    (argsort (alts s)).map (fun i => (temps s).getD i PyFloat.nan) = temps (sorted argsort s) := by
  have hlt : ∀ i ∈ argsort (alts s), i < s.length := by
    intro i hi; exact List.mem_range.mp (h.1.subset hi)
  constructor
  · conv_rhs => rw [alts, sorted, List.map_map]
    apply List.map_congr_left
    intro i hi
    have := hlt i hi
    simp [alts, this]
  · conv_rhs => rw [temps, sorted, List.map_map]
    apply List.map_congr_left
    intro i hi
    have := hlt i hi
    simp [temps, this]

theorem warm_alts (q : List (ℝ × ℝ)) :
    (List.zip (temps q) (alts q)).filterMap (fun p => if p.1 >. 0 then some p.2 else none) =
      ((q.filter (fun p => decide (0 < p.1))).map (fun p => p.2)).map fin := by
  induction q with
  | nil => rfl
  | cons p q ih =>
    simp only [temps, alts, List.map_cons, List.zip_cons_cons, List.filterMap_cons, fzero, fgt] at ih ⊢
    by_cases hp : 0 < p.1
    · simp [hp, ih]
    · simp [hp, ih]

theorem zero_alts (s : List (ℝ × ℝ)) :
    (List.zip (temps s) (alts s)).filterMap (fun p => if p.1 ==. 0 then some p.2 else none) =
      ((s.filter (fun p => decide (p.1 = 0))).map (fun p => p.2)).map fin := by
  induction s with
  | nil => rfl
  | cons p q ih =>
    simp only [temps, alts, List.map_cons, List.zip_cons_cons, List.filterMap_cons, fzero, feq] at ih ⊢
    by_cases hp : p.1 = 0
    · simp [hp, ih]
    · simp [hp, ih]

/-! ## C58 -/

variable {argsort : List XR → List Nat} {polyfit1 : List XR → List XR → XR}

/-- **C58**, first clause: if some level has T exactly 0, the result is the highest such level. -/
theorem C58_exact_zero (s : List (ℝ × ℝ)) (h : ∃ p ∈ s, p.1 = 0) :
    ∃ z, getFreezingAltitude argsort polyfit1 (temps s) (alts s) = .ok (some (fin z)) ∧
      (∃ p ∈ s, p.1 = 0 ∧ p.2 = z) ∧ ∀ p ∈ s, p.1 = 0 → p.2 ≤ z := by
  simp only [getFreezingAltitude, zero_alts]
  obtain ⟨p, hp, hp0⟩ := h
  have hmem : ∀ p ∈ s, p.1 = 0 → p.2 ∈ ((s.filter (fun p => decide (p.1 = 0))).map (fun p => p.2)) := by
    intro p hp h0; exact List.mem_map.mpr ⟨p, by simp [hp, h0], rfl⟩
  cases hc : (s.filter (fun p => decide (p.1 = 0))).map (fun p => p.2) with
  | nil => have := hmem p hp hp0; rw [hc] at this; simp at this
  | cons z zs =>
    obtain ⟨m, e, hm, hle⟩ := npMax_fin z zs
    refine ⟨m, by simp only [List.map_cons, e], ?_, ?_⟩
    · rw [← hc] at hm
      obtain ⟨q, hq, rfl⟩ := List.mem_map.mp hm
      simp at hq; exact ⟨q, hq.1, hq.2, rfl⟩
    · intro q hq h0
      exact hle _ (by rw [← hc]; exact hmem q hq h0)

/-- the mixed-sign branch, reduced to the sorted sounding -/
theorem mixed_eq {s : List (ℝ × ℝ)} (hs : Argsorts argsort s) (h0 : ∀ p ∈ s, p.1 ≠ 0) (hp : ∃ p ∈ s, 0 < p.1)
    (hn : ∃ p ∈ s, p.1 < 0) :
    getFreezingAltitude argsort polyfit1 (temps s) (alts s) = (do
      let zarg ← argmax (((sorted argsort s).filter (fun p => decide (0 < p.1))).map (fun p => p.2) |>.map fin)
      match ((temps (sorted argsort s)).drop zarg).take 2, ((alts (sorted argsort s)).drop zarg).take 2 with
        | [a0, a1], [b0, b1] =>
          if a1 <. a0 then .ok (some (interp0 a1 a0 b1 b0)) else .ok (some (interp0 a0 a1 b0 b1))
        | _, _ => .error .indexError) := by
  have hz : (s.filter (fun p => decide (p.1 = 0))) = [] := by
    rw [List.filter_eq_nil_iff]; intro p hp; simpa using h0 p hp
  simp only [getFreezingAltitude, zero_alts, hz, List.map_nil, (sorted_cols hs).1, (sorted_cols hs).2, warm_alts]
  cases hs' : s with
  | nil => subst hs'; simp at hp
  | cons x xs =>
    obtain ⟨M, eM, -, hM⟩ := npMax_fin x.1 (xs.map (·.1))
    obtain ⟨m, em, -, hm⟩ := npMin_fin x.1 (xs.map (·.1))
    have e : (x :: xs).map (·.1) = x.1 :: xs.map (·.1) := rfl
    have hMpos : 0 < M := by
      obtain ⟨p, hp, h⟩ := hp
      rw [hs'] at hp
      exact h.trans_le (hM p.1 (by rw [← e]; exact List.mem_map_of_mem hp))
    have hmneg : m < 0 := by
      obtain ⟨p, hp, h⟩ := hn
      rw [hs'] at hp
      exact (hm p.1 (by rw [← e]; exact List.mem_map_of_mem hp)).trans_lt h
    rw [List.map_map] at eM em
    simp only [temps, List.map_cons]
    have eM' : npMax (fin x.1) (List.map (fun p => fin p.1) xs) = fin M := eM
    have em' : npMin (fin x.1) (List.map (fun p => fin p.1) xs) = fin m := em
    simp only [eM', em', fzero, fgt, flt, hMpos, hmneg, decide_true, Bool.and_self, if_true]
    congr 1
    funext zarg
    generalize List.take 2 (List.drop zarg (List.map (fun p => fin p.1) (sorted argsort (x :: xs)))) = L1
    generalize List.take 2 (List.drop zarg (alts (sorted argsort (x :: xs)))) = L2
    rcases L1 with _ | ⟨a, _ | ⟨b, _ | ⟨c, L1⟩⟩⟩ <;> rcases L2 with _ | ⟨d, _ | ⟨e, _ | ⟨f, L2⟩⟩⟩ <;> rfl

/-- **C58**, last clause: for a sounding with both signs and no exact zero the call succeeds and the result lies between
the altitudes of two levels, hence between the lowest and the highest. -/
theorem C58_within_range (s : List (ℝ × ℝ)) (hs : Argsorts argsort s) (h0 : ∀ p ∈ s, p.1 ≠ 0)
    (hp : ∃ p ∈ s, 0 < p.1) (hn : ∃ p ∈ s, p.1 < 0) :
    ∃ h, getFreezingAltitude argsort polyfit1 (temps s) (alts s) = .ok (some (fin h)) ∧
      (∃ p ∈ s, p.2 ≤ h) ∧ ∃ p ∈ s, h ≤ p.2 := by
  rw [mixed_eq hs h0 hp hn]
  have hperm := sorted_perm hs
  generalize sorted argsort s = q at hperm
  have hmem : ∀ p, p ∈ q ↔ p ∈ s := fun p => hperm.mem_iff
  have hlen : (q.filter (fun p => decide (0 < p.1))).length < q.length := by
    obtain ⟨p, hp, h⟩ := hn
    rw [List.length_filter_lt_length_iff_exists]
    exact ⟨p, (hmem p).mpr hp, by simp; exact h.le⟩
  cases hc : (q.filter (fun p => decide (0 < p.1))).map (fun p => p.2) with
  | nil =>
    exfalso
    obtain ⟨p, hp, h⟩ := hp
    have : p.2 ∈ (q.filter (fun p => decide (0 < p.1))).map (fun p => p.2) :=
      List.mem_map.mpr ⟨p, by simp [hmem, hp, h], rfl⟩
    rw [hc] at this; simp at this
  | cons z zs =>
    have hl : zs.length + 1 < q.length := by
      have : ((q.filter (fun p => decide (0 < p.1))).map (fun p => p.2)).length = zs.length + 1 := by rw [hc]; rfl
      rw [List.length_map] at this; omega
    have hz : argmaxGo (fin z) 0 1 (zs.map fin) < 1 + zs.length := by
      have := argmaxGo_lt (zs.map fin) (fin z) 0 1 (by norm_num); simpa using this
    simp only [List.map_cons, argmax, bind, Except.bind]
    generalize argmaxGo (fin z) 0 1 (zs.map fin) = k at hz
    have hk : k + 1 < q.length := by omega
    obtain ⟨a, b, hq⟩ : ∃ a b : ℝ × ℝ, (q.drop k).take 2 = [a, b] := by
      have : ((q.drop k).take 2).length = 2 := by simp; omega
      match h : (q.drop k).take 2, this with
      | [a, b], _ => exact ⟨a, b, rfl⟩
    have ha : a ∈ s := (hmem a).mp (List.mem_of_mem_drop (List.mem_of_mem_take (i := 2) (by rw [hq]; simp)))
    have hb : b ∈ s := (hmem b).mp (List.mem_of_mem_drop (List.mem_of_mem_take (i := 2) (by rw [hq]; simp)))
    have e1 : ((temps q).drop k).take 2 = [fin a.1, fin b.1] := by
      rw [temps, ← List.map_drop, ← List.map_take, hq]; rfl
    have e2 : ((alts q).drop k).take 2 = [fin a.2, fin b.2] := by
      rw [alts, ← List.map_drop, ← List.map_take, hq]; rfl
    simp only [e1, e2]
    have fin' : ∀ h : ℝ, min a.2 b.2 ≤ h → h ≤ max a.2 b.2 → (∃ p ∈ s, p.2 ≤ h) ∧ ∃ p ∈ s, h ≤ p.2 := by
      intro h h1 h2
      rcases le_total a.2 b.2 with hab | hab
      · rw [min_eq_left hab] at h1; rw [max_eq_right hab] at h2; exact ⟨⟨a, ha, h1⟩, b, hb, h2⟩
      · rw [min_eq_right hab] at h1; rw [max_eq_left hab] at h2; exact ⟨⟨b, hb, h1⟩, a, ha, h2⟩
    split
    · obtain ⟨h, e, h1, h2⟩ := interp0_between (x0 := b.1) (x1 := a.1) b.2 a.2
      rw [min_comm] at h1; rw [max_comm] at h2
      exact ⟨h, by rw [e], fin' h h1 h2⟩
    · obtain ⟨h, e, h1, h2⟩ := interp0_between (x0 := a.1) (x1 := b.1) a.2 b.2
      exact ⟨h, by rw [e], fin' h h1 h2⟩

theorem split_warm_cold (q : List (ℝ × ℝ)) (h0 : ∀ p ∈ q, p.1 ≠ 0)
    (h : q.Pairwise (fun a b => ¬ (a.1 < 0 ∧ 0 < b.1))) :
    q = q.filter (fun p => decide (0 < p.1)) ++ q.filter (fun p => decide (p.1 < 0)) := by
  induction q with
  | nil => rfl
  | cons p q ih =>
    rw [List.pairwise_cons] at h
    have ih' := ih (fun x hx => h0 x (by simp [hx])) h.2
    rcases lt_or_gt_of_ne (h0 p (by simp)) with hp | hp
    · have hall : ∀ x ∈ q, x.1 < 0 := by
        intro x hx
        rcases lt_or_gt_of_ne (h0 x (by simp [hx])) with hx0 | hx0
        · exact hx0
        · exact absurd ⟨hp, hx0⟩ (h.1 x hx)
      have e1 : q.filter (fun p => decide (0 < p.1)) = [] := by
        rw [List.filter_eq_nil_iff]; intro x hx; simpa using (hall x hx).le
      have e2 : q.filter (fun p => decide (p.1 < 0)) = q := by
        rw [List.filter_eq_self]; intro x hx; simpa using hall x hx
      simp [hp, hp.le, e1, e2]
    · rw [List.filter_cons_of_pos (by simpa using hp), List.filter_cons_of_neg (by simpa using hp.le), List.cons_append,
        ← ih']

/-- **C58**, the interpolation clause for soundings with a single crossing (every level above freezing lies below every
level below freezing; any number of levels in any order, distinct altitudes, no exact zero). -/
theorem C58_single_crossing (s : List (ℝ × ℝ)) (hs : Argsorts argsort s) (hnd : (s.map (·.2)).Nodup)
    (h0 : ∀ p ∈ s, p.1 ≠ 0) (hp : ∃ p ∈ s, 0 < p.1) (hn : ∃ p ∈ s, p.1 < 0)
    (hsep : ∀ a ∈ s, ∀ b ∈ s, 0 < a.1 → b.1 < 0 → a.2 < b.2) :
    ∃ h, getFreezingAltitude argsort polyfit1 (temps s) (alts s) = .ok (some (fin h)) ∧ HighestCrossing s h := by
  rw [mixed_eq hs h0 hp hn]
  have hperm := sorted_perm hs
  have hmem : ∀ p, p ∈ sorted argsort s ↔ p ∈ s := fun p => hperm.mem_iff
  have hsrt : (sorted argsort s).Pairwise (fun a b => a.2 < b.2) := by
    have h1 : (sorted argsort s).Pairwise (fun a b => a.2 ≤ b.2) := by
      have := hs.2
      have e : (argsort (alts s)).map (fun i => (s.getD i (0, 0)).2) = (sorted argsort s).map (·.2) := by
        simp only [sorted, List.map_map, Function.comp_def]
      rw [e, List.pairwise_map] at this
      exact this
    have h2 : (sorted argsort s).Pairwise (fun a b => a.2 ≠ b.2) := by
      have := (hperm.map (·.2)).nodup_iff.mpr hnd
      rwa [List.Nodup, List.pairwise_map] at this
    exact (h1.and h2).imp (fun h => lt_of_le_of_ne h.1 h.2)
  generalize sorted argsort s = q at hperm hmem hsrt
  have hq := split_warm_cold q (fun p hp => h0 p ((hmem p).mp hp)) (by
    have : q.Pairwise (fun a b => a ∈ q ∧ b ∈ q ∧ a.2 < b.2) := List.Pairwise.and_mem.mp hsrt
    refine this.imp ?_
    rintro a b ⟨ha, hb, hab⟩ ⟨h1, h2⟩
    have := hsep b ((hmem b).mp hb) a ((hmem a).mp ha) h2 h1
    linarith)
  have hwarm : ∀ p, p ∈ q.filter (fun p => decide (0 < p.1)) ↔ p ∈ s ∧ 0 < p.1 := by simp [hmem]
  have hcold : ∀ p, p ∈ q.filter (fun p => decide (p.1 < 0)) ↔ p ∈ s ∧ p.1 < 0 := by simp [hmem]
  generalize q.filter (fun p => decide (0 < p.1)) = w at hq hwarm
  generalize q.filter (fun p => decide (p.1 < 0)) = c at hq hcold
  obtain ⟨w', p, rfl⟩ : ∃ w' p, w = w' ++ [p] := by
    have : w ≠ [] := by
      obtain ⟨p, hp, h⟩ := hp
      intro e; have := (hwarm p).mpr ⟨hp, h⟩; rw [e] at this; simp at this
    exact ⟨w.dropLast, w.getLast this, (List.dropLast_append_getLast this).symm⟩
  obtain ⟨n, c', rfl⟩ : ∃ n c', c = n :: c' := by
    cases c with
    | nil =>
      obtain ⟨p, hp, h⟩ := hn
      have := (hcold p).mpr ⟨hp, h⟩; simp at this
    | cons n c' => exact ⟨n, c', rfl⟩
  have hpw := (hwarm p).mp (by simp)
  have hnc := (hcold n).mp (by simp)
  have hsrtw : ((w' ++ [p]).map (·.2)).Pairwise (· < ·) := by
    rw [List.pairwise_map]; rw [hq] at hsrt; exact (List.pairwise_append.mp hsrt).1
  have hzarg : argmax ((((w' ++ [p]).map (fun p => p.2))).map fin) = .ok w'.length := by
    cases hw : (w' ++ [p]).map (fun p => p.2) with
    | nil => simp at hw
    | cons z zs =>
      simp only [List.map_cons, argmax]
      have hp2 : (z :: zs).Pairwise (· < ·) := by rw [← hw]; exact hsrtw
      rw [argmaxGo_increasing zs z 0 1 hp2]
      have hl : zs.length = w'.length := by
        have := congrArg List.length hw; simp at this; omega
      split
      next e => subst e; simp at hl; simp [← hl]
      next e => congr 1; omega
  rw [hzarg]
  simp only [bind, Except.bind]
  have hdrop : (q.drop w'.length).take 2 = [p, n] := by rw [hq]; simp
  have e1 : ((temps q).drop w'.length).take 2 = [fin p.1, fin n.1] := by
    rw [temps, ← List.map_drop, ← List.map_take, hdrop]; rfl
  have e2 : ((alts q).drop w'.length).take 2 = [fin p.2, fin n.2] := by
    rw [alts, ← List.map_drop, ← List.map_take, hdrop]; rfl
  have hlt : n.1 < p.1 := hnc.2.trans hpw.2
  simp only [e1, e2, flt, hlt, decide_true, if_true]
  rw [interp0_crossing n.2 p.2 hnc.2 hpw.2]
  have hpn : p.2 < n.2 := hsep p hpw.1 n hnc.1 hpw.2 hnc.2
  have heq : n.2 + (0 - n.1) * (p.2 - n.2) / (p.1 - n.1) = p.2 + (0 - p.1) * (n.2 - p.2) / (n.1 - p.1) := by
    have h1 : p.1 - n.1 ≠ 0 := by linarith
    have h2 : n.1 - p.1 ≠ 0 := by intro h; exact h1 (by linarith)
    field_simp
    ring
  -- order facts
  have hwle : ∀ a ∈ s, 0 < a.1 → a.2 ≤ p.2 := by
    intro a ha h
    have := (hwarm a).mpr ⟨ha, h⟩
    rcases List.mem_append.mp this with h1 | h1
    · rw [hq] at hsrt
      have := (List.pairwise_append.mp hsrt).1
      exact ((List.pairwise_append.mp this).2.2 a h1 p (by simp)).le
    · rw [List.mem_singleton.mp h1]
  have hcge : ∀ b ∈ s, b.1 < 0 → n.2 ≤ b.2 := by
    intro b hb h
    have := (hcold b).mpr ⟨hb, h⟩
    rcases List.mem_cons.mp this with rfl | h1
    · exact le_rfl
    · rw [hq] at hsrt
      exact ((List.pairwise_cons.mp (List.pairwise_append.mp hsrt).2.1).1 b h1).le
  have hadj : ∀ x ∈ s, ¬ (p.2 < x.2 ∧ x.2 < n.2) := by
    rintro x hx ⟨h1, h2⟩
    rcases lt_or_gt_of_ne (h0 x hx) with h | h
    · have := hcge x hx h; linarith
    · have := hwle x hx h; linarith
  have hinj : ∀ x ∈ s, ∀ y ∈ s, x.2 = y.2 → x = y := fun x hx y hy h => List.inj_on_of_nodup_map hnd hx hy h
  refine ⟨_, rfl, ⟨p, hpw.1, n, hnc.1, hpn, hadj, mul_neg_of_pos_of_neg hpw.2 hnc.2, heq⟩, ?_⟩
  rintro h' ⟨a, ha, b, hb, hab, hadj', hsgn, rfl⟩
  have ha0 : 0 < a.1 := by
    by_contra hc
    have h1 : a.1 < 0 := lt_of_le_of_ne (not_lt.mp hc) (h0 a ha)
    have h2 : 0 < b.1 := by
      by_contra h; have := mul_nonneg_of_nonpos_of_nonpos h1.le (not_lt.mp h); linarith
    have := hsep b hb a ha h2 h1; linarith
  have hb0 : b.1 < 0 := by
    by_contra h; have := mul_nonneg ha0.le (not_lt.mp h); linarith
  have eap : a = p := by
    apply hinj a ha p hpw.1
    refine le_antisymm (hwle a ha ha0) ?_
    by_contra hc
    exact hadj' p hpw.1 ⟨not_le.mp hc, hpn.trans_le (hcge b hb hb0)⟩
  have ebn : b = n := by
    apply hinj b hb n hnc.1
    refine le_antisymm ?_ (hcge b hb hb0)
    by_contra hc
    exact hadj' n hnc.1 ⟨(hwle a ha ha0).trans_lt hpn, not_le.mp hc⟩
  subst eap ebn
  exact heq.ge

/-- an inverted sounding (cold surface, warm layer, cold top) -/
def inversion : List (ℝ × ℝ) := [(-1, 0), (2, 1), (-3, 2)]

theorem inversion_argsorts : Argsorts (fun _ => [0, 1, 2]) inversion := by
  refine ⟨by decide, ?_⟩
  simp [inversion]

/-- **C83 is false of the code**: for the inversion (-1 at 0 km, 2 at 1 km, -3 at 2 km) the code returns 1/3 km; the
highest crossing is at 1.4 km. -/
theorem C83_highest_crossing_false : ¬ InterpolatesHighestCrossing := by
  intro hall
  obtain ⟨h, e, -, hmax⟩ := hall (fun _ => [0, 1, 2]) (fun _ _ => fin 0) inversion inversion_argsorts
    (by simp [inversion]) (by simp [inversion]) (by simp [inversion]) (by simp [inversion])
  rw [mixed_eq inversion_argsorts (by simp [inversion]) (by simp [inversion]) (by simp [inversion])] at e
  have hq : sorted (fun _ => [0, 1, 2]) inversion = inversion := by simp [sorted, inversion]
  have hf : inversion.filter (fun p => decide (0 < p.1)) = [(2, 1)] := by
    simp only [inversion, List.filter_cons]
    norm_num
  rw [hq, hf] at e
  simp only [List.map_cons, List.map_nil, argmax, argmaxGo, bind, Except.bind, temps, alts, inversion, List.drop_zero,
    List.take_succ_cons, List.take_zero] at e
  rw [if_neg (by rw [flt]; norm_num), interp0_crossing _ _ (by norm_num) (by norm_num)] at e
  injection e with e
  injection e with e
  rw [fin_inj] at e
  have : (1.4 : ℝ) ≤ h := hmax 1.4 ⟨(2, 1), by simp [inversion], (-3, 2), by simp [inversion], by norm_num, by
    intro c hc; simp [inversion] at hc; rcases hc with rfl | rfl | rfl <;> norm_num, by norm_num, by norm_num⟩
  rw [← e] at this
  norm_num at this

/-- the hypotheses of the partial theorem on a three-level sounding given out of order -/
example : Argsorts (fun _ => [1, 2, 0]) [(-3, 2), (5, 0), (1, 1)] ∧
    (∀ a ∈ ([(-3, 2), (5, 0), (1, 1)] : List (ℝ × ℝ)), ∀ b ∈ ([(-3, 2), (5, 0), (1, 1)] : List (ℝ × ℝ)),
      0 < a.1 → b.1 < 0 → a.2 < b.2) := by
  refine ⟨⟨by decide, by simp⟩, ?_⟩
  simp

/-- the one-sign branch, reduced to the sorted sounding -/
theorem one_sign_eq (s : List (ℝ × ℝ)) (hs : Argsorts argsort s) (hne : s ≠ [])
    (h : (∀ p ∈ s, 0 < p.1) ∨ (∀ p ∈ s, p.1 < 0)) :
    getFreezingAltitude argsort polyfit1 (temps s) (alts s) =
      .ok (some (polyfit1 (temps (sorted argsort s)) (alts (sorted argsort s)))) := by
  have hz : (s.filter (fun p => decide (p.1 = 0))) = [] := by
    rw [List.filter_eq_nil_iff]; intro p hp
    rcases h with h | h
    · simpa using (h p hp).ne'
    · simpa using (h p hp).ne
  simp only [getFreezingAltitude, zero_alts, hz, List.map_nil, (sorted_cols hs).1, (sorted_cols hs).2]
  cases hs' : s with
  | nil => exact absurd hs' hne
  | cons x xs =>
    obtain ⟨M, eM, hMm, hM⟩ := npMax_fin x.1 (xs.map (·.1))
    obtain ⟨m, em, hmm, hm⟩ := npMin_fin x.1 (xs.map (·.1))
    have e : (x :: xs).map (·.1) = x.1 :: xs.map (·.1) := rfl
    rw [← e, ← hs'] at hMm hmm
    obtain ⟨pM, hpM, rfl⟩ := List.mem_map.mp hMm
    obtain ⟨pm, hpm, rfl⟩ := List.mem_map.mp hmm
    rw [List.map_map] at eM em
    have eM' : npMax (fin x.1) (List.map (fun p => fin p.1) xs) = fin pM.1 := eM
    have em' : npMin (fin x.1) (List.map (fun p => fin p.1) xs) = fin pm.1 := em
    conv_lhs => simp only [temps, List.map_cons]
    simp only [eM', em', fzero, fgt, flt]
    rcases h with h | h
    · have h1 := h pM hpM; have h2 := h pm hpm
      simp [h1, h2, not_lt.mpr h2.le]
      rfl
    · have h1 := h pM hpM; have h2 := h pm hpm
      simp [h1, h2, not_lt.mpr h1.le]
      rfl

/-- **C58**, all temperatures of one sign: the regression intercept is returned (`np.polyfit` itself is not modelled). -/
theorem C58_one_sign (s : List (ℝ × ℝ)) (hs : Argsorts argsort s) (hne : s ≠ [])
    (h : (∀ p ∈ s, 0 < p.1) ∨ (∀ p ∈ s, p.1 < 0)) :
    ∃ q : List (ℝ × ℝ), q.Perm s ∧ getFreezingAltitude argsort polyfit1 (temps s) (alts s) =
      .ok (some (polyfit1 (temps q) (alts q))) :=
  ⟨sorted argsort s, sorted_perm hs, one_sign_eq s hs hne h⟩

end Csu.LiquidIce
