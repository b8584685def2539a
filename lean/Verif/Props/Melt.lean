import Verif.Lemmas.Melt
/-!
# C35: quality control of `melting_layer`; C33: categories of `run_winter`
-/
namespace Csu.Fhc
open Csu PyFloat Tables FhcSpec
variable {α : Type} [PyFloat α]

/-! ## C35 -/

/-- is the correlation coefficient of gate `i` unusable: masked, NaN, or not above the threshold? -/
def rhoUnusable (A : MeltArgs α) (rho : Masked α) (i : Nat) : Bool :=
  rho.mask.getD i true || isnan (rho.arr.data.getD i PyFloat.nan) || rho.arr.data.getD i PyFloat.nan <=. A.minRH

/-- is the signal of gate `i` below the threshold (never, if no signal field was given)? -/
def weakSignal (A : MeltArgs α) (sn : Option (NdArray α)) (i : Nat) : Bool :=
  match sn with
  | none => false
  | some s => s.data.getD i PyFloat.nan <. A.snThresh

/-- does the second score row beat the first at gate `i` (a NaN first score is not beaten)? -/
def wetSnowBetter (scores : List (List α)) (i : Nat) : Bool :=
  let other := (scores.getD 0 []).getD i PyFloat.nan
  let wet := (scores.getD 1 []).getD i PyFloat.nan
  !isnan other && !(wet <=. other)

theorem getD_of_get? {β : Type} {l : List β} {i : Nat} {x d : β} (h : l[i]? = some x) : l.getD i d = x := by
  simp [List.getD, h]

theorem qualityControl_get? {sn : Option (List α)} {t : α} {rho : Masked α} {minRH : α} {fh : List Int} {i : Nat}
    {f : Int} (hf : fh[i]? = some f) {m : Bool} {x : α} (hm : rho.mask[i]? = some m) (hx : rho.arr.data[i]? = some x)
    (hs : ∀ s, sn = some s → i < s.length) :
    (qualityControl sn t rho minRH fh)[i]? = some (if m || isnan x || x <=. minRH then -1
      else if (match sn with | none => false | some s => s.getD i PyFloat.nan <. t) then 0 else f) := by
  unfold qualityControl
  cases sn with
  | none =>
    simp only [maskSet_get?, List.getElem?_map, hx, Option.map_some, List.getElem?_zipWith, hm, hf]
    cases m <;> cases isnan x <;> cases x <=. minRH <;> simp
  | some s =>
    have hi := hs s rfl
    have hsi : s[i]? = some s[i] := List.getElem?_eq_getElem hi
    dsimp only
    have hg : s.getD i PyFloat.nan = s[i] := getD_of_get? hsi
    simp only [hg]
    simp only [maskSet_get?, List.getElem?_map, hx, Option.map_some, List.getElem?_zipWith, hm, hf, hsi]
    cases m <;> cases isnan x <;> cases x <=. minRH <;> simp

theorem length_qualityControl {sn : Option (List α)} {t : α} {rho : Masked α} {minRH : α} {fh : List Int}
    (hm : rho.mask.length = fh.length) (hx : rho.arr.data.length = fh.length)
    (hs : ∀ s, sn = some s → s.length = fh.length) : (qualityControl sn t rho minRH fh).length = fh.length := by
  unfold qualityControl
  cases sn with
  | none => simp [maskSet, hm, hx]
  | some s => simp [maskSet, hm, hx, hs s rfl]

/-- C35, in any arithmetic and for every input: whenever `melting_layer` returns, each gate's code is -1 where rho is
masked, NaN or at most `minRH`; otherwise 0 where the signal is below `sn_thresh`; otherwise 2 where wet snow scores
strictly better than other, and 1 else. -/
theorem C35_codes (env : Env) (A : MeltArgs α) (F : Fields α) (M : MeltOut α)
    (h : meltingLayer env A F = .ok (some M)) :
    ∃ dz rho, F.dz = some dz ∧ F.rho = .masked rho ∧ M.shape = dz.shape ∧ M.fh.length = dz.data.length ∧
      ∀ i < dz.data.length, M.scores.length = 2 ∧ M.fh[i]? = some
        (WinterSpec.detector (rhoUnusable A rho i) (weakSignal A F.sn i) (wetSnowBetter M.scores i)) := by
  obtain ⟨shape, dz, height, rho, h1, h2, h3, h4, h5, h6, h7, h8, h9⟩ := meltingLayer_inv h
  have hrho : rho.arr.data.length = dz.data.length :=
    (sameShape_length (a := rho.arr) h5 (by simp [h3, RhoArg.array])).1
  have hsn : ∀ s, F.sn = some s → s.data.length = dz.data.length := by
    intro s hs; exact (sameShape_length (a := s) h5 (by simp [hs])).1
  have hlc : ((classify dz.data.length M.scores).map Int.ofNat).length = dz.data.length := by simp [classify]
  refine ⟨dz, rho, h2, h3, h9, ?_, ?_⟩
  · rw [h7, length_qualityControl (by rw [hlc, h6]) (by rw [hlc, hrho])]
    · exact hlc
    · intro s hs
      cases hq : F.sn with
      | none => simp [hq] at hs
      | some q => simp [hq] at hs; rw [← hs, hlc]; exact hsn q hq
  · intro i hi
    have hrows : M.scores.length = 2 := by
      have := ml_rows (show (mlInputs F).dz = some dz from h2) h1
      exact Nat.eq_of_mul_eq_mul_right (by omega) this
    refine ⟨hrows, ?_⟩
    have hm : rho.mask[i]? = some rho.mask[i] := List.getElem?_eq_getElem (by omega)
    have hx : rho.arr.data[i]? = some rho.arr.data[i] := List.getElem?_eq_getElem (by omega)
    have hf : ((classify dz.data.length M.scores).map Int.ofNat)[i]? =
        some (Int.ofNat (argmaxPlus1 (column M.scores i))) := by
      rw [List.getElem?_map, classify_get? _ _ _ hi]; rfl
    rw [h7, qualityControl_get? hf hm hx]
    · obtain ⟨r0, r1, hr⟩ := length_two hrows
      congr 1
      unfold WinterSpec.detector rhoUnusable weakSignal wetSnowBetter
      rw [getD_of_get? hm, getD_of_get? hx, hr]
      simp only [column, List.map_cons, List.map_nil, argmaxPlus1_two, List.getD_cons_zero, List.getD_cons_succ]
      have hsn' : (match Option.map (fun x => x.data) F.sn with
          | none => false
          | some s => s.getD i PyFloat.nan <. A.snThresh) = (match F.sn with
          | none => false
          | some s => s.data.getD i PyFloat.nan <. A.snThresh) := by
        cases F.sn <;> rfl
      rw [hsn']
      cases isnan (r0.getD i PyFloat.nan) <;> cases r1.getD i PyFloat.nan <=. r0.getD i PyFloat.nan <;> simp
    · intro s hs
      cases hq : F.sn with
      | none => simp [hq] at hs
      | some q => simp [hq] at hs; rw [← hs, hsn q hq]; exact hi

/-- C35: every code is -1, 0, 1 or 2. -/
theorem C35_range (env : Env) (A : MeltArgs α) (F : Fields α) (M : MeltOut α)
    (h : meltingLayer env A F = .ok (some M)) : ∀ f ∈ M.fh, f = -1 ∨ f = 0 ∨ f = 1 ∨ f = 2 := by
  obtain ⟨dz, rho, _, _, _, hl, hc⟩ := C35_codes env A F M h
  intro f hf
  obtain ⟨i, hi, rfl⟩ := List.getElem_of_mem hf
  have := (hc i (by omega)).2
  rw [List.getElem?_eq_getElem hi] at this
  simp only [Option.some.injEq] at this
  rw [this]
  unfold WinterSpec.detector
  cases rhoUnusable A rho i <;> cases weakSignal A F.sn i <;> cases wetSnowBetter M.scores i <;> simp

/-- C35: without heights `melting_layer` returns `None` or raises, whatever the other arguments. -/
theorem C35_no_heights (env : Env) (A : MeltArgs α) (F : Fields α) (hh : F.heights = none) (o : Option (MeltOut α))
    (h : meltingLayer env A F = .ok o) : o = none := by
  cases o with
  | none => rfl
  | some M =>
    obtain ⟨_, _, height, _, _, _, _, h4, _⟩ := meltingLayer_inv h
    rw [hh] at h4; cases h4

/-- C35: rho must be a masked array: with a plain array, or without rho, no call returns. -/
theorem C35_needs_masked_rho (env : Env) (A : MeltArgs α) (F : Fields α) (hr : ∀ m, F.rho ≠ .masked m)
    (o : Option (MeltOut α)) : meltingLayer env A F ≠ .ok o := by
  intro h
  simp only [meltingLayer, bind, Except.bind] at h
  split at h
  · cases h
  · split at h
    · cases h
    · split at h
      · cases h
      · split at h
        · cases h
        · cases hq : F.rho with
          | masked m => exact hr m hq
          | none => simp [hq] at h
          | plain a => simp [hq] at h

/-! ## C33 -/

/-- what a successful `run_winter` call consists of -/
theorem runWinter_inv {env : Env} {A : MeltArgs α} {F : Fields α} {out : WinterOut α}
    (h : runWinter env A F = .ok out) :
    ∃ (M : MeltOut α) (dz : NdArray α), meltingLayer env A F = .ok (some M) ∧ F.dz = some dz ∧
      winterRows env true F = .ok out.scoresWarm ∧ winterRows env false F = .ok out.scoresCold ∧ out.shape = M.shape ∧
      out.scoresMl = M.scores ∧
      out.hca = combine (A.scanType == "grid") M.meltlev M.fh
        ((classify dz.data.length out.scoresWarm).map Int.ofNat)
        ((classify dz.data.length out.scoresCold).map Int.ofNat) ∧
      out.ml = renumberMl M.fh ∧ out.warm = renumberWarm ((classify dz.data.length out.scoresWarm).map Int.ofNat) ∧
      out.cold = (classify dz.data.length out.scoresCold).map Int.ofNat := by
  simp only [runWinter, bind, Except.bind] at h
  split at h
  · cases h
  · rename_i o ho
    cases o with
    | none => cases h
    | some M =>
      simp only at h
      cases hd : F.dz with
      | none => simp [hd] at h
      | some dz =>
        simp only [hd] at h
        split at h
        · cases h
        · split at h
          · cases h
          · rename_i rw hrw
            split at h
            · cases h
            · rename_i rc hrc
              simp only [Except.ok.injEq] at h
              subst h
              exact ⟨M, dz, ho, rfl, hrw, hrc, rfl, rfl, rfl, rfl, rfl, rfl⟩

theorem winterRows_length {env : Env} {warm : Bool} {F : Fields α} {rows : List (List α)} (h : winterRows env warm F = .ok rows) :
    rows.length = if warm then 2 else 4 := by
  simp only [winterRows, bind, Except.bind] at h
  split at h
  · cases h
  · rename_i o ho
    cases o with
    | none => cases h
    | some p =>
      obtain ⟨shape, rows'⟩ := p
      simp only [Except.ok.injEq] at h
      subst h
      exact (C31_row_count _ _ _ _ (winterV_ok ho)).1

theorem combine_get? {grid : Bool} {lev : List Nat} {fh warm cold : List Int} {i l : Nat} {f : Int} {w c : Nat}
    (hl : lev[i]? = some l) (hf : fh[i]? = some f) (hw : warm[i]? = some (w : Int)) (hc : cold[i]? = some (c : Int))
    (hw' : w = 1 ∨ w = 2) (hf' : f = -1 ∨ f = 0 ∨ f = 1 ∨ f = 2) :
    (combine grid lev fh warm cold)[i]? = some (WinterSpec.category grid f l w c) := by
  unfold combine renumberWarm renumberMl
  cases grid
  all_goals
    simp only [maskSet_get?, maskCopy_get?, List.getElem?_map, hl, hf, hw, hc, Option.map_some, if_true,
      Bool.false_eq_true, if_false]
    congr 1
    unfold WinterSpec.category
    rcases hw' with rfl | rfl <;> rcases hf' with rfl | rfl | rfl | rfl <;>
      by_cases h0 : l = 0 <;> by_cases h2 : l = 2 <;> by_cases h1 : l = 1 <;> simp_all

theorem column_length (rows : List (List α)) (i : Nat) : (column rows i).length = rows.length := by simp [column]

theorem winner_range {rows : List (List α)} {n : Nat} (h : rows.length = n) (hn : 0 < n) (i : Nat) :
    1 ≤ argmaxPlus1 (column rows i) ∧ argmaxPlus1 (column rows i) ≤ n := by
  have := argmaxPlus1_range (column rows i) (by intro e; have := congrArg List.length e; simp [column_length] at this; simp [this] at h; omega)
  rw [column_length, h] at this
  exact this

/-- C33, in any arithmetic and for every input: whenever `run_winter` returns, every gate gets the category prescribed by
the melting-layer code and level of that gate and by the winners of the warm and of the cold scores. -/
theorem C33_rule (env : Env) (A : MeltArgs α) (F : Fields α) (out : WinterOut α) (h : runWinter env A F = .ok out) :
    ∃ M : MeltOut α, meltingLayer env A F = .ok (some M) ∧ out.shape = M.shape ∧ out.hca.length = M.fh.length ∧
      M.meltlev.length = M.fh.length ∧
      ∀ (i : Nat) (code : Int), M.fh[i]? = some code → ∃ lev : Nat, M.meltlev[i]? = some lev ∧
        out.hca[i]? = some (WinterSpec.category (A.scanType == "grid") code lev
          (argmaxPlus1 (column out.scoresWarm i)) (argmaxPlus1 (column out.scoresCold i))) := by
  obtain ⟨M, dz, h1, h2, h3, h4, h5, h6, h7, -⟩ := runWinter_inv h
  obtain ⟨dz', rho, e1, _, _, e2, _⟩ := C35_codes env A F M h1
  rw [h2] at e1; cases e1
  obtain ⟨_, dz', height, _, _, g1, _, g2, g3, _, _, g4, _⟩ := meltingLayer_inv h1
  rw [h2] at g1; cases g1
  have hh := sameShape_length (a := height) g3 (by simp [g2])
  have hwf : height.WF := by
    simp only [sameShape, Bool.and_eq_true, List.all_eq_true, decide_eq_true_eq] at g3
    have := g3.2 (some height) (by simp [g2])
    simp only [Bool.and_eq_true, beq_iff_eq, decide_eq_true_eq] at this
    exact this.2
  have hlev : M.meltlev.length = M.fh.length := by rw [length_meltLevels hwf g4, hh.1, e2]
  have hpoint : ∀ (i : Nat) (code : Int), M.fh[i]? = some code → ∃ lev : Nat, M.meltlev[i]? = some lev ∧
        out.hca[i]? = some (WinterSpec.category (A.scanType == "grid") code lev
          (argmaxPlus1 (column out.scoresWarm i)) (argmaxPlus1 (column out.scoresCold i))) := by
    intro i code hi
    obtain ⟨hi', rfl⟩ := List.getElem?_eq_some_iff.mp hi
    have hl : M.meltlev[i]? = some M.meltlev[i] := List.getElem?_eq_getElem (by omega)
    refine ⟨_, hl, ?_⟩
    rw [h7]
    have r2 := winner_range (winterRows_length h3) (by simp) i
    simp only [if_true] at r2
    refine combine_get? hl hi ?_ ?_ (by omega) (C35_range env A F M h1 _ (List.getElem_mem _))
    · rw [List.getElem?_map, classify_get? _ _ _ (by omega)]; rfl
    · rw [List.getElem?_map, classify_get? _ _ _ (by omega)]; rfl
  refine ⟨M, h1, h5, ?_, hlev, hpoint⟩
  rw [h7]
  cases (A.scanType == "grid") <;> simp [combine, renumberWarm, renumberMl, maskSet, maskCopy, hlev, e2, classify]

/-- C33: the only categories are -1 and 1 to 7; wet snow exactly where the detector says so; 6 and 7 only in the warm
level, 1 to 4 only in the cold level (or, on grids, in the melting level). -/
theorem C33_contract (env : Env) (A : MeltArgs α) (F : Fields α) (out : WinterOut α) (h : runWinter env A F = .ok out) :
    ∃ M : MeltOut α, meltingLayer env A F = .ok (some M) ∧ out.hca.length = M.fh.length ∧
      ∀ (i : Nat) (v : Int), out.hca[i]? = some v → ∃ (code : Int) (lev : Nat), M.fh[i]? = some code ∧ M.meltlev[i]? = some lev ∧
        (v = -1 ∨ (1 ≤ v ∧ v ≤ 7)) ∧ (v = 5 ↔ code = 2) ∧ (v = 6 ∨ v = 7 ↔ code = 1 ∧ lev = 0) ∧
        ((1 ≤ v ∧ v ≤ 4) ↔ code = 1 ∧ (lev = 2 ∨ (lev = 1 ∧ A.scanType = "grid"))) ∧
        (code = -1 ∨ code = 0 → v = -1) := by
  obtain ⟨M, h1, h2, h3, h4, h5⟩ := C33_rule env A F out h
  obtain ⟨M', dz, g1, g2, g3, g4, _⟩ := runWinter_inv h
  refine ⟨M, h1, h3, ?_⟩
  intro i v hv
  obtain ⟨hi, _⟩ := List.getElem?_eq_some_iff.mp hv
  have hc : M.fh[i]? = some M.fh[i] := List.getElem?_eq_getElem (by omega)
  obtain ⟨lev, hl, hcat⟩ := h5 i _ hc
  have hr := C35_range env A F M h1 M.fh[i] (List.getElem_mem _)
  have hw := winner_range (winterRows_length g3) (by simp) i
  have hcd := winner_range (winterRows_length g4) (by simp) i
  simp only [if_true, Bool.false_eq_true, if_false] at hw hcd
  rw [hcat, Option.some.injEq] at hv
  refine ⟨_, lev, hc, hl, ?_⟩
  generalize M.fh[i] = f at *
  generalize argmaxPlus1 (column out.scoresWarm i) = w at *
  generalize argmaxPlus1 (column out.scoresCold i) = c at *
  unfold WinterSpec.category at hv
  have hg : (A.scanType == "grid") = true ↔ A.scanType = "grid" := beq_iff_eq
  simp only [hg] at hv
  by_cases hg : A.scanType = "grid"
  all_goals
    simp only [hg, and_true, and_false, or_false] at hv ⊢
    split at hv
    · subst hv; omega
    · split at hv
      · split at hv
        · omega
        · split at hv <;> omega
      · omega

/-- **C104.** The intermediate classes that `run_winter` returns with `return_scores` explain the final category of every gate:
`ML` is 5 (wet snow), 1 (other), 0 or -1 (unusable); `warm` is 6 or 7, the better warm species (ties to 6); `cold` is 1 to 4, the
best cold species (ties to the lowest); the category is 5 exactly where `ML` is 5, -1 where `ML` is 0 or -1, and elsewhere the
warm class, the cold class or -1. -/
theorem C104_returned_classes (env : Env) (A : MeltArgs α) (F : Fields α) (out : WinterOut α) (h : runWinter env A F = .ok out) :
    out.ml.length = out.hca.length ∧ out.warm.length = out.hca.length ∧ out.cold.length = out.hca.length ∧
    ∀ (i : Nat) (v : Int), out.hca[i]? = some v → ∃ m w c : Int,
      out.ml[i]? = some m ∧ out.warm[i]? = some w ∧ out.cold[i]? = some c ∧
      (m = 5 ∨ m = 1 ∨ m = 0 ∨ m = -1) ∧
      w = 5 + argmaxPlus1 (column out.scoresWarm i) ∧ (w = 6 ∨ w = 7) ∧
      c = argmaxPlus1 (column out.scoresCold i) ∧ 1 ≤ c ∧ c ≤ 4 ∧
      (v = 5 ↔ m = 5) ∧ (m = 0 ∨ m = -1 → v = -1) ∧ (m = 1 → v = w ∨ v = c ∨ v = -1) := by
  obtain ⟨M, h1, -, h3, h4, h5⟩ := C33_rule env A F out h
  obtain ⟨M', dz, g1, g2, g3, g4, -, -, -, k1, k2, k3⟩ := runWinter_inv h
  rw [h1] at g1; cases g1
  obtain ⟨dz', rho, e1, _, _, e2, _⟩ := C35_codes env A F M h1
  rw [g2] at e1; cases e1
  have len : dz.data.length = M.fh.length := by omega
  refine ⟨?_, ?_, ?_, ?_⟩
  · rw [k1, h3]; simp [renumberMl, maskSet]
  · rw [k2, h3, ← len]; simp [renumberWarm, maskSet, classify]
  · rw [k3, h3, ← len]; simp [classify]
  intro i v hv
  obtain ⟨hi, _⟩ := List.getElem?_eq_some_iff.mp hv
  have hc : M.fh[i]? = some M.fh[i] := List.getElem?_eq_getElem (by omega)
  obtain ⟨lev, hl, hcat⟩ := h5 i _ hc
  have hr := C35_range env A F M h1 M.fh[i] (List.getElem_mem _)
  have hw := winner_range (winterRows_length g3) (by simp) i
  have hcd := winner_range (winterRows_length g4) (by simp) i
  simp only [if_true, Bool.false_eq_true, if_false] at hw hcd
  rw [hcat, Option.some.injEq] at hv
  have q1 : out.ml[i]? = some (if M.fh[i] = 2 then 5 else M.fh[i]) := by
    rw [k1, renumberMl, maskSet_get?, List.getElem?_map, hc]
    simp
  have q2 : out.warm[i]? = some (5 + (argmaxPlus1 (column out.scoresWarm i) : Int)) := by
    rw [k2]
    simp only [renumberWarm, maskSet_get?, List.getElem?_map, classify_get? _ _ _ (show i < dz.data.length by omega), Option.map_some]
    congr 1
    rcases (show argmaxPlus1 (column out.scoresWarm i) = 1 ∨ argmaxPlus1 (column out.scoresWarm i) = 2 by omega) with e | e <;>
      simp [e]
  have q3 : out.cold[i]? = some (argmaxPlus1 (column out.scoresCold i) : Int) := by
    rw [k3, List.getElem?_map, classify_get? _ _ _ (show i < dz.data.length by omega)]
    rfl
  refine ⟨_, _, _, q1, q2, q3, ?_⟩
  generalize M.fh[i] = f at *
  generalize argmaxPlus1 (column out.scoresWarm i) = w at *
  generalize argmaxPlus1 (column out.scoresCold i) = c at *
  unfold WinterSpec.category at hv
  rcases hr with rfl | rfl | rfl | rfl
  · simp at hv ⊢; omega
  · simp at hv ⊢; omega
  · simp only [show ¬ (1 : Int) = 2 by decide, if_false, if_true] at hv ⊢
    split at hv
    · refine ⟨Or.inr (Or.inl trivial), trivial, by omega, trivial, by omega, by omega, by omega, by omega, fun _ => by omega⟩
    · split at hv
      · refine ⟨Or.inr (Or.inl trivial), trivial, by omega, trivial, by omega, by omega, by omega, by omega, fun _ => by omega⟩
      · refine ⟨Or.inr (Or.inl trivial), trivial, by omega, trivial, by omega, by omega, by omega, by omega, fun _ => by omega⟩
  · simp at hv ⊢; omega

/-- C35: without heights `run_winter` never returns: it raises TypeError where `melting_layer` returned None. -/
theorem C35_no_heights_run_winter (env : Env) (A : MeltArgs α) (F : Fields α) (hh : F.heights = none) :
    (∀ out, runWinter env A F ≠ .ok out) ∧ (∀ o, meltingLayer env A F = .ok o → runWinter env A F = .error .typeError) := by
  constructor
  · intro out h
    obtain ⟨M, dz, h1, -⟩ := runWinter_inv h
    cases C35_no_heights env A F hh _ h1
  · intro o ho
    cases C35_no_heights env A F hh _ ho
    unfold runWinter
    rw [ho]
    rfl

/-- C33: wet snow (5) exactly where rho is usable, the signal is not weak and wet snow scores better than other. -/
theorem C33_wet_snow (env : Env) (A : MeltArgs α) (F : Fields α) (out : WinterOut α) (h : runWinter env A F = .ok out) :
    ∃ rho, F.rho = .masked rho ∧ ∀ (i : Nat) (v : Int), out.hca[i]? = some v →
      (v = 5 ↔ rhoUnusable A rho i = false ∧ weakSignal A F.sn i = false ∧ wetSnowBetter out.scoresMl i = true) := by
  obtain ⟨M, h1, h2, h3⟩ := C33_contract env A F out h
  obtain ⟨M', _, g1, _, _, _, _, g2, _⟩ := runWinter_inv h
  rw [h1] at g1; cases g1
  obtain ⟨dz, rho, _, e2, _, e3, e4⟩ := C35_codes env A F M h1
  refine ⟨rho, e2, ?_⟩
  intro i v hv
  obtain ⟨code, lev, c1, _, _, c2, _⟩ := h3 i v hv
  rw [c2, g2]
  obtain ⟨hi, rfl⟩ := List.getElem?_eq_some_iff.mp c1
  have := (e4 i (by omega)).2
  rw [List.getElem?_eq_getElem hi, Option.some.injEq] at this
  rw [this]
  unfold WinterSpec.detector
  cases rhoUnusable A rho i <;> cases weakSignal A F.sn i <;> cases wetSnowBetter M.scores i <;> simp

end Csu.Fhc
