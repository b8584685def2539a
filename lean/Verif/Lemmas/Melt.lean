import Verif.Model.Winter
import Verif.Spec.Winter
import Verif.Props.Winter
import Verif.Props.Plot
/-! # Lemmas on the melting-layer model -/
namespace Csu
open PyFloat

theorem maskSet_get? {β : Type} (m : List Bool) (v : β) (a : List β) (i : Nat) :
    (maskSet m v a)[i]? = match m[i]?, a[i]? with
      | some c, some x => some (if c then v else x)
      | _, _ => none := by
  unfold maskSet
  rw [List.getElem?_zipWith]
  cases m[i]? <;> cases a[i]? <;> rfl

theorem maskCopy_get? {β : Type} (m : List Bool) (s a : List β) (i : Nat) :
    (maskCopy m s a)[i]? = match m[i]?, s[i]?, a[i]? with
      | some c, some y, some x => some (if c then y else x)
      | _, _, _ => none := by
  unfold maskCopy
  rw [List.getElem?_zipWith, List.zip, List.getElem?_zipWith]
  cases m[i]? <;> cases s[i]? <;> cases a[i]? <;> rfl

theorem length_maskSet {β : Type} (m : List Bool) (v : β) (a : List β) (h : m.length = a.length) :
    (maskSet m v a).length = a.length := by simp [maskSet, h]

namespace Fhc
variable {α : Type} [PyFloat α]

/-- what a successful `melting_layer` call with heights consists of -/
theorem meltingLayer_inv {env : Env} {A : MeltArgs α} {F : Fields α} {M : MeltOut α}
    (h : meltingLayer env A F = .ok (some M)) :
    ∃ (shape : List Nat) (dz height : NdArray α) (rho : Masked α),
      csuFhcMl mlCallArgs (mlInputs F) = .ok (some (shape, M.scores)) ∧ F.dz = some dz ∧ F.rho = .masked rho ∧
      F.heights = some height ∧ sameShape dz [F.zdr, F.kdp, F.rho.array, F.sn, F.heights] = true ∧
      rho.mask.length = dz.data.length ∧
      M.fh = qualityControl (F.sn.map (·.data)) A.snThresh rho A.minRH
        ((classify dz.data.length M.scores).map Int.ofNat) ∧
      meltLevels env A F.azimuths dz height M.fh = .ok (M.meltlev, M.melt) ∧ M.shape = dz.shape := by
  simp only [meltingLayer, bind, Except.bind] at h
  split at h
  · cases h
  · rename_i o ho
    cases o with
    | none => cases h
    | some p =>
      obtain ⟨shape, rows⟩ := p
      simp only at h
      cases hd : F.dz with
      | none => simp [hd] at h
      | some dz =>
        simp only [hd] at h
        split at h
        · cases h
        · rename_i hs
          cases hr : F.rho with
          | none => simp [hr] at h
          | plain a => simp [hr] at h
          | masked rho =>
            simp only [hr] at h
            split at h
            · cases h
            · rename_i hm
              cases hh : F.heights with
              | none => simp [hh] at h
              | some height =>
                simp only [hh] at h
                split at h
                · cases h
                · rename_i q hq
                  obtain ⟨lev, m⟩ := q
                  simp only [Except.ok.injEq, Option.some.injEq] at h
                  subst h
                  refine ⟨shape, dz, height, rho, mlV_ok ho, rfl, rfl, rfl, ?_, by simpa using hm, rfl, hq, rfl⟩
                  simpa [hr, hh] using hs

theorem sameShape_length {dz : NdArray α} {l : List (Option (NdArray α))} (h : sameShape dz l = true)
    {a : NdArray α} (ha : some a ∈ l) : a.data.length = dz.data.length ∧ a.shape = dz.shape := by
  simp only [sameShape, Bool.and_eq_true, List.all_eq_true, decide_eq_true_eq] at h
  have := h.2 _ ha
  simp only [Bool.and_eq_true, beq_iff_eq, decide_eq_true_eq] at this
  have h2 := h.1.2
  unfold NdArray.WF at this h2
  exact ⟨by rw [this.2, h2, this.1], this.1⟩

theorem classify_get? (sz : Nat) (rows : List (List α)) (i : Nat) (hi : i < sz) :
    (classify sz rows)[i]? = some (argmaxPlus1 (column rows i)) := by
  simp [classify, hi]

theorem argmaxPlus1_two (a b : α) : argmaxPlus1 [a, b] = if isnan a || b <=. a then 1 else 2 := by
  unfold argmaxPlus1
  simp only [argmaxGo]
  cases isnan a <;> cases b <=. a <;> simp

/-- the melting-layer classifier has two score rows (if there is any gate) -/
theorem ml_rows {I : Inputs α} {shape : List Nat} {rows : List (List α)} {dz : NdArray α} (hd : I.dz = some dz)
    (h : csuFhcMl mlCallArgs I = .ok (some (shape, rows))) : rows.length * dz.data.length = 2 * dz.data.length := by
  unfold csuFhcMl at h
  rw [hd] at h
  simp only [bind, Except.bind] at h
  split at h
  · cases h
  · split at h
    · cases h
    · split at h
      · cases h
      · split at h
        · cases h
        · rename_i hne
          simp only [Except.ok.injEq, Option.some.injEq, Prod.mk.injEq] at h
          rw [← h.2]
          exact not_not.mp hne

theorem length_two {β : Type} {l : List β} (h : l.length = 2) : ∃ a b, l = [a, b] := by
  match l, h with
  | [a, b], _ => exact ⟨a, b, rfl⟩

theorem length_getMlRhi {env : Env} {fh : List Int} {height : List α} {e : Option α} {lev : List Nat} {m : α}
    (h : getMlRhi env fh height e = .ok (lev, m)) : lev.length = height.length := by
  simp only [getMlRhi, bind, Except.bind] at h
  split at h
  · cases h
  · rename_i o _
    cases o with
    | none => simp [splitRhi] at h
    | some v =>
      simp only [splitRhi, Except.ok.injEq, Prod.mk.injEq] at h
      rw [← h.1, length_maskSet, length_maskSet] <;> simp [maskSet]

theorem zipWith_meltlev_length (height m : List α) (h : m.length = height.length) (p : α → α → Bool) (v : Nat)
    (a : List Nat) (ha : a.length = height.length) : (maskSet (List.zipWith p height m) v a).length = height.length := by
  simp [maskSet, h, ha]

theorem length_meltlevAz (nsect : Nat) (az meds : List α) : (meltlevAz nsect az meds).length = az.length := by
  unfold meltlevAz
  have : ∀ (l : List (α × Nat)) (acc : List α), acc.length = az.length →
      (l.foldl (fun acc p => maskSet (inSector nsect p.2 az) p.1 acc) acc).length = az.length := by
    intro l
    induction l with
    | nil => intro acc h; exact h
    | cons p l ih =>
      intro acc h
      simp only [List.foldl_cons]
      apply ih
      rw [length_maskSet] <;> simp [inSector, logicalAnd, h]
  exact this _ _ (by simp)

theorem length_getMlPpiAz {nsect : Nat} {azs : List α} {cols : Nat} {fh : List Int} {dz height : List α}
    {e : Option α} {lev : List Nat} {ms : List α} (hl : height.length = azs.length * cols)
    (h : getMlPpiAz nsect azs cols fh dz height e = .ok (lev, ms)) : lev.length = height.length := by
  simp only [getMlPpiAz] at h
  split at h
  · cases h
  · simp only [bind, Except.bind] at h
    split at h
    · cases h
    · simp only [Except.ok.injEq, Prod.mk.injEq] at h
      rw [← h.1]
      have hm : ∀ meds : List α, (meltlevAz nsect (azs.flatMap (fun a => List.replicate cols a)) meds).length
          = height.length := by
        intro meds
        rw [length_meltlevAz, hl]
        simp
      rw [zipWith_meltlev_length _ _ (hm _) _ _ _ (zipWith_meltlev_length _ _ (hm _) _ _ _ (by simp))]

/-- every gate gets a level -/
theorem length_meltLevels {env : Env} {A : MeltArgs α} {az : Option (List α)} {dz height : NdArray α} {fh : List Int}
    {lev : List Nat} {m : Melt α} (hw : height.WF) (h : meltLevels env A az dz height fh = .ok (lev, m)) :
    lev.length = height.data.length := by
  unfold meltLevels at h
  split at h
  · simp only [bind, Except.bind] at h
    split at h
    · cases h
    · rename_i p hp
      obtain ⟨l', m'⟩ := p
      simp only [Except.ok.injEq, Prod.mk.injEq] at h
      rw [← h.1]
      exact length_getMlRhi hp
  · unfold getMlPpi at h
    split at h
    · simp only [bind, Except.bind] at h
      split at h
      · cases h
      · rename_i p hp
        obtain ⟨l', m'⟩ := p
        simp only [Except.ok.injEq, Prod.mk.injEq] at h
        rw [← h.1]
        exact length_getMlRhi hp
    · split at h
      · cases h
      · rename_i rows cols _ hsh
        split at h
        · cases h
        · rename_i hlen
          simp only [bind, Except.bind] at h
          split at h
          · cases h
          · rename_i p hp
            obtain ⟨l', m'⟩ := p
            simp only [Except.ok.injEq, Prod.mk.injEq] at h
            rw [← h.1]
            refine length_getMlPpiAz ?_ hp
            unfold NdArray.WF at hw
            rw [hw, hsh, not_not.mp hlen]
            simp
      · cases h
      · cases h

end Fhc
end Csu
