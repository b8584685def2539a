import Verif.Props.Freezing
/-!
# C83: what `get_freezing_altitude` returns for any sounding with both signs

C83 is false for inversions (`C83_highest_crossing_false`).  The exact rule: with `k` levels warmer than 0, the code interpolates between the
`k`-th and the `k+1`-th level from below, whatever their temperatures.
-/
namespace Csu.LiquidIce
open Csu XR PyFloat
variable {argsort : List XR → List Nat} {polyfit1 : List XR → List XR → XR}

theorem below_count (q : List (ℝ × ℝ)) (h : q.Pairwise (fun a b => a.2 < b.2)) (j : Nat) (hj : j < q.length) :
    (q.filter (fun p => decide (p.2 < q[j].2))).length = j := by
  have hq : q = q.take j ++ q.drop j := (List.take_append_drop j q).symm
  have hd : q.drop j = q[j] :: q.drop (j + 1) := List.drop_eq_getElem_cons hj
  rw [hq, hd] at h
  have h1 := List.pairwise_append.mp h
  have e1 : (q.take j).filter (fun p => decide (p.2 < q[j].2)) = q.take j := by
    rw [List.filter_eq_self]
    intro p hp
    simpa using h1.2.2 p hp q[j] List.mem_cons_self
  have e2 : (q.drop j).filter (fun p => decide (p.2 < q[j].2)) = [] := by
    rw [List.filter_eq_nil_iff, hd]
    intro p hp
    rcases List.mem_cons.mp hp with rfl | hp
    · simp
    · have := (List.pairwise_cons.mp h1.2.1).1 p hp
      simpa using this.le
  calc (q.filter (fun p => decide (p.2 < q[j].2))).length
      = ((q.take j).filter (fun p => decide (p.2 < q[j].2)) ++ (q.drop j).filter (fun p => decide (p.2 < q[j].2))).length := by
        rw [← List.filter_append, ← hq]
    _ = j := by rw [e1, e2, List.append_nil, List.length_take]; omega

/-- **C83**, the exact rule.  For a sounding (any order of levels, distinct altitudes, no exact zero, both signs present) let `lo` be the level
with one level less below it than there are warm levels, and `hi` the next one.  If the temperature changes sign between them the
code interpolates there; otherwise it returns the altitude of the one nearer to freezing. -/
theorem C83_exact_partial (s : List (ℝ × ℝ)) (hs : Argsorts argsort s) (hnd : (s.map (·.2)).Nodup)
    (h0 : ∀ p ∈ s, p.1 ≠ 0) (hp : ∃ p ∈ s, 0 < p.1) (hn : ∃ p ∈ s, p.1 < 0) :
    ∃ lo ∈ s, ∃ hi ∈ s, lo.2 < hi.2 ∧
      (s.filter (fun p => decide (p.2 < lo.2))).length + 1 = (s.filter (fun p => decide (0 < p.1))).length ∧
      (s.filter (fun p => decide (p.2 < hi.2))).length = (s.filter (fun p => decide (0 < p.1))).length ∧
      ∃ h, getFreezingAltitude argsort polyfit1 (temps s) (alts s) = .ok (some (fin h)) ∧
        (lo.1 * hi.1 < 0 → h = lo.2 + (0 - lo.1) * (hi.2 - lo.2) / (hi.1 - lo.1)) ∧
        (0 < lo.1 → 0 < hi.1 → h = if hi.1 < lo.1 then hi.2 else lo.2) ∧
        (lo.1 < 0 → hi.1 < 0 → h = if hi.1 < lo.1 then lo.2 else hi.2) := by
  rw [mixed_eq hs h0 hp hn]
  have hperm := sorted_perm hs
  have hmem : ∀ p, p ∈ sorted argsort s ↔ p ∈ s := fun p => hperm.mem_iff
  have hsrt : (sorted argsort s).Pairwise (fun a b => a.2 < b.2) := by
    have h1 : (sorted argsort s).Pairwise (fun a b => a.2 ≤ b.2) := by
      have := hs.2
      have e : (argsort (alts s)).map (fun i => (s.getD i (0, 0)).2) = (sorted argsort s).map (·.2) := by
        simp only [sorted, List.map_map, Function.comp_def]
      rw [e, List.pairwise_map] at this
      exact this
    have h2 : (sorted argsort s).Pairwise (fun a b => a.2 ≠ b.2) := by
      have := (hperm.map (·.2)).nodup_iff.mpr hnd
      rwa [List.Nodup, List.pairwise_map] at this
    exact (h1.and h2).imp (fun h => lt_of_le_of_ne h.1 h.2)
  have hcnt : ∀ f : ℝ × ℝ → Bool, (s.filter f).length = ((sorted argsort s).filter f).length := fun f => ((hperm.filter f).length_eq).symm
  simp only [hcnt]
  generalize sorted argsort s = q at hperm hmem hsrt
  have hlen : (q.filter (fun p => decide (0 < p.1))).length < q.length := by
    obtain ⟨p, hp, h⟩ := hn
    rw [List.length_filter_lt_length_iff_exists]
    exact ⟨p, (hmem p).mpr hp, by simp; exact h.le⟩
  have hpos : 0 < (q.filter (fun p => decide (0 < p.1))).length := by
    obtain ⟨p, hp, h⟩ := hp
    exact List.length_pos_of_mem (List.mem_filter.mpr ⟨(hmem p).mpr hp, by simpa using h⟩)
  have hw : ((q.filter (fun p => decide (0 < p.1))).map (·.2)).Pairwise (· < ·) := by
    rw [List.pairwise_map]; exact hsrt.sublist List.filter_sublist
  obtain ⟨j, hj⟩ : ∃ j, (q.filter (fun p => decide (0 < p.1))).length = j + 1 := ⟨_, (Nat.succ_pred_eq_of_pos hpos).symm⟩
  have hzarg : argmax (((q.filter (fun p => decide (0 < p.1))).map (fun p => p.2)).map fin) = .ok j := by
    have hl : ((q.filter (fun p => decide (0 < p.1))).map (fun p => p.2)).length = j + 1 := by rw [List.length_map, hj]
    revert hw hl
    cases (q.filter (fun p => decide (0 < p.1))).map (fun p => p.2) with
    | nil => intro _ h; simp at h
    | cons z zs =>
      intro hw hl
      simp only [List.map_cons, argmax]
      rw [argmaxGo_increasing zs z 0 1 hw]
      simp only [List.length_cons, Nat.add_right_cancel_iff] at hl
      split
      next e => subst e; simp at hl; simp [← hl]
      next e => congr 1; omega
  rw [hzarg, hj]
  have h1 : j + 1 < q.length := by omega
  have h2 : j < q.length := by omega
  have hdrop : (q.drop j).take 2 = [q[j], q[j + 1]] := by
    rw [List.drop_eq_getElem_cons h2, List.drop_eq_getElem_cons h1]; rfl
  have e1 : ((temps q).drop j).take 2 = [fin q[j].1, fin q[j + 1].1] := by
    rw [temps, ← List.map_drop, ← List.map_take, hdrop]; rfl
  have e2 : ((alts q).drop j).take 2 = [fin q[j].2, fin q[j + 1].2] := by
    rw [alts, ← List.map_drop, ← List.map_take, hdrop]; rfl
  have m1 : q[j] ∈ s := (hmem _).mp (List.getElem_mem h2)
  have m2 : q[j + 1] ∈ s := (hmem _).mp (List.getElem_mem h1)
  refine ⟨q[j], m1, q[j + 1], m2, List.pairwise_iff_getElem.mp hsrt j (j + 1) h2 h1 (by omega), by rw [below_count q hsrt j h2],
    below_count q hsrt (j + 1) h1, ?_⟩
  simp only [bind, Except.bind, e1, e2]
  have z1 := h0 _ m1
  have z2 := h0 _ m2
  generalize q[j] = a at z1 ⊢
  generalize q[j + 1] = b at z2 ⊢
  obtain ⟨a1, a2⟩ := a
  obtain ⟨b1, b2⟩ := b
  simp only at z1 z2 ⊢
  rcases lt_or_gt_of_ne z1 with ha | ha <;> rcases lt_or_gt_of_ne z2 with hb | hb
  · -- both cold
    by_cases hlt : b1 < a1
    · refine ⟨a2, ?_, fun h => ?_, fun h => absurd h (by linarith), fun _ _ => by rw [if_pos hlt]⟩
      · simp only [flt, hlt, decide_true, if_true, interp0, fzero, fgt, ha]
      · nlinarith
    · refine ⟨b2, ?_, fun h => ?_, fun h => absurd h (by linarith), fun _ _ => by rw [if_neg hlt]⟩
      · simp only [flt, hlt, decide_false, Bool.false_eq_true, if_false, interp0, fzero, fgt, hb, decide_true, if_true]
      · nlinarith
  · refine ⟨a2 + (0 - a1) * (b2 - a2) / (b1 - a1), ?_, fun _ => rfl, fun h => absurd h (by linarith), fun _ h => absurd h (by linarith)⟩
    rw [if_neg (by rw [flt]; simp; linarith), interp0_crossing _ _ ha hb]
  · refine ⟨a2 + (0 - a1) * (b2 - a2) / (b1 - a1), ?_, fun _ => rfl, fun _ h => absurd h (by linarith), fun h => absurd h (by linarith)⟩
    rw [if_pos (by rw [flt]; simp; linarith), interp0_crossing _ _ hb ha]
    have n1 : a1 - b1 ≠ 0 := by intro h; linarith
    have n2 : b1 - a1 ≠ 0 := by intro h; linarith
    congr 3
    field_simp
    ring
  · -- both warm
    have na : ¬ (0 : ℝ) > a1 → True := fun _ => trivial
    by_cases hlt : b1 < a1
    · refine ⟨b2, ?_, fun h => ?_, fun _ _ => by rw [if_pos hlt], fun h => absurd h (by linarith)⟩
      · simp only [flt, hlt, decide_true, if_true, interp0, fzero, fgt, hb, ha.not_gt, decide_false, Bool.false_eq_true, if_false]
      · nlinarith
    · refine ⟨a2, ?_, fun h => ?_, fun _ _ => by rw [if_neg hlt], fun h => absurd h (by linarith)⟩
      · simp only [flt, hlt, decide_false, Bool.false_eq_true, if_false, interp0, fzero, fgt, ha, hb.not_gt, decide_true, if_true]
      · nlinarith

/-- the inversion of C83: one warm level, so the two lowest levels are used -/
example : Argsorts (fun _ => [0, 1, 2]) inversion ∧ (inversion.map (·.2)).Nodup ∧ (∀ p ∈ inversion, p.1 ≠ 0) ∧
    (∃ p ∈ inversion, 0 < p.1) ∧ ∃ p ∈ inversion, p.1 < 0 :=
  ⟨inversion_argsorts, by norm_num [inversion], by norm_num [inversion], by simp [inversion], by simp [inversion]⟩

end Csu.LiquidIce
