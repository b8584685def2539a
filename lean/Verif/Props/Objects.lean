import Verif.Lemmas.Heap
import Verif.Model.Objects
import Verif.Spec.Objects
import Verif.QFloat
/-!
# C108: the caller's arrays are not changed, and results are new arrays

Every theorem is about every heap and every reference, valid or not, and about failing calls as well.  In particular the same array may be passed
for several arguments.
-/
namespace Csu.Heap
open Csu PyFloat Common
variable {α : Type} [PyFloat α]

/-- run through a straight-line program -/
macro "keeps" : tactic => `(tactic| repeat' (first
  | with_reducible exact Keeps.raise
  | with_reducible exact Keeps.newF
  | with_reducible exact Keeps.newB
  | with_reducible exact Keeps.newI
  | with_reducible exact Keeps.updF (by assumption)
  | with_reducible exact Keeps.updI (by assumption)
  | with_reducible exact Keeps.updB (by assumption)
  | (with_reducible refine Keeps.bind Keeps.getF ?_; rintro ⟨_, _⟩ _; dsimp only)
  | (with_reducible refine Keeps.bind Keeps.getI ?_; intro _ _)
  | (with_reducible refine Keeps.bind Keeps.getB ?_; intro _ _)
  | (with_reducible refine Keeps.bind Keeps.newF ?_; intro _ _)
  | (with_reducible refine Keeps.bind Keeps.newI ?_; intro _ _)
  | (with_reducible refine Keeps.bind Keeps.newB ?_; intro _ _)
  | (with_reducible refine Keeps.bind (Keeps.updF (by assumption)) ?_; intro _ _)
  | (with_reducible refine Keeps.bind (Keeps.updI (by assumption)) ?_; intro _ _)
  | (with_reducible refine Keeps.bind (Keeps.updB (by assumption)) ?_; intro _ _)
  | (with_reducible refine Keeps.bind Keeps.lift ?_; intro _ _)))

/-- from the program logic to the specification -/
theorem Keeps.spec {β : Type} {p : HM α β} {Q : Nat → β → Prop} (hp : ∀ n, Keeps n p (Q n)) (h : Heap α) :
    Unchanged h (p h).2 ∧ ∀ v, (p h).1 = .ok v → Q h.length v := Keeps.caller hp h

theorem isNew_of_le {h : Heap α} {r : Ref} (hr : h.length ≤ r) : IsNew h r := List.getElem?_eq_none hr

theorem insectCondsH_keeps (n : Nat) (dz zdr : Ref) (dzRange : List (α × α)) (i : Nat) (th : List α) :
    Keeps n (insectCondsH dz zdr dzRange i th) (fun rs => rs.length = th.length) := by
  induction th generalizing i with
  | nil => exact Keeps.pure rfl
  | cons t ts ih =>
    unfold insectCondsH
    keeps
    refine Keeps.bind (ih _) fun _ e => ?_
    exact Keeps.pure (by simp [e])

theorem orAllH_keeps (n : Nat) (s : Ref) (cs : List Ref) (hs : cs ≠ [] ∨ n ≤ s) :
    Keeps n (orAllH s cs : HM α Ref) (n ≤ ·) := by
  induction cs generalizing s with
  | nil => exact Keeps.pure (by simpa using hs)
  | cons c cs ih =>
    unfold orAllH
    keeps
    exact ih _ (.inr (by assumption))

theorem orAllH_keeps' (n : Nat) (s : Ref) (cs : List Ref) : Keeps n (orAllH s cs : HM α Ref) (fun _ => True) := by
  induction cs generalizing s with
  | nil => exact Keeps.pure trivial
  | cons c cs ih =>
    unfold orAllH
    keeps
    exact ih _

theorem insectMaskH_keeps (n : Nat) (dz zdr : Ref) (mask : Option Ref) (bad : α) :
    Keeps n (insectMaskH dz zdr mask bad) (fun r => mask = none → n ≤ r) := by
  unfold insectMaskH
  cases mask with
  | some m => exact Keeps.pure (fun e => by cases e)
  | none =>
    dsimp only
    keeps
    exact Keeps.newB.weaken fun _ hv _ => hv

theorem insectFilterH_keeps (n : Nat) (dz zdr : Ref) (mask : Option Ref) (dzRange : List (α × α)) (th : List α) (bad : α) :
    Keeps n (insectFilterH dz zdr mask dzRange th bad) (fun r => mask = none ∨ th ≠ [] → n ≤ r) := by
  unfold insectFilterH
  refine Keeps.bind (insectMaskH_keeps n dz zdr mask bad) fun m hm => ?_
  refine Keeps.bind (insectCondsH_keeps n dz zdr dzRange 0 th) fun v hv => ?_
  by_cases hc : mask = none ∨ th ≠ []
  · refine (orAllH_keeps n m v ?_).weaken fun _ h _ => h
    rcases hc with hc | hc
    · exact .inr (hm hc)
    · refine .inl fun e => hc ?_
      rw [e] at hv
      exact List.length_eq_zero_iff.mp hv.symm
  · exact (orAllH_keeps' n m v).weaken fun _ _ h => absurd h hc

/-- **C108**, `insect_filter`: nothing of the caller's changes; the result is a new array unless the caller supplies the mask and no
thresholds, and then it is the mask itself. -/
theorem C108_insect_filter (dz zdr : Ref) (mask : Option Ref) (dzRange : List (α × α)) (th : List α) (bad : α) (h : Heap α) :
    Unchanged h (insectFilterH dz zdr mask dzRange th bad h).2 ∧
    (mask = none ∨ th ≠ [] → ∀ r, (insectFilterH dz zdr mask dzRange th bad h).1 = .ok r → IsNew h r) ∧
    ∀ m, mask = some m → th = [] → (insectFilterH dz zdr mask dzRange th bad h).1 = .ok m := by
  obtain ⟨a, b⟩ := Keeps.spec (fun n => insectFilterH_keeps n dz zdr mask dzRange th bad) h
  refine ⟨a, fun hm r e => isNew_of_le (b r e hm), ?_⟩
  · rintro m rfl rfl
    rfl

theorem zeroSmallH_keeps (n : Nat) (labels : List Nat) (ng : Int) (lab : Ref) (hl : n ≤ lab) (fs : List Nat) :
    Keeps n (zeroSmallH labels ng lab fs : HM α Unit) (fun _ => True) := by
  induction fs with
  | nil => exact Keeps.pure trivial
  | cons f fs ih =>
    unfold zeroSmallH
    split
    · exact Keeps.bind (Keeps.updI hl) fun _ _ => ih
    · exact ih

theorem despeckleRayH_keeps (n : Nat) (ray : List Bool) (ng : Int) : Keeps n (despeckleRayH ray ng : HM α Ref) (n ≤ ·) := by
  unfold despeckleRayH
  refine Keeps.bind Keeps.newI fun lab hl => ?_
  dsimp only
  split
  · refine Keeps.bind (zeroSmallH_keeps n _ ng lab hl _) fun _ _ => ?_
    keeps
  · keeps

theorem despeckleRowsH_keeps (n : Nat) (array mask : Ref) (hm : n ≤ mask) (w : Nat) (ng : Int) (azs : List Nat) :
    Keeps n (despeckleRowsH array mask w ng azs : HM α Unit) (fun _ => True) := by
  induction azs with
  | nil => exact Keeps.pure trivial
  | cons az azs ih =>
    unfold despeckleRowsH
    keeps
    refine Keeps.bind (despeckleRayH_keeps n _ ng) fun _ _ => ?_
    keeps
    exact ih

theorem despeckleH_keeps (n : Nat) (data : Ref) (shape : List Nat) (bad : α) (ng : Int) :
    Keeps n (despeckleH data shape bad ng) (fun o => ∀ r, o = some r → n ≤ r) := by
  unfold despeckleH
  split
  · exact Keeps.raise
  unfold despeckleNH
  keeps
  split
  · refine Keeps.bind (despeckleRowsH_keeps n _ _ (by assumption) _ ng _) fun _ _ => ?_
    exact Keeps.pure (by rintro r ⟨⟩; assumption)
  · keeps
    refine Keeps.bind (despeckleRayH_keeps n _ ng) fun _ _ => ?_
    exact Keeps.pure (by rintro r ⟨⟩; assumption)
  · exact Keeps.pure (by rintro r ⟨⟩)

/-- **C108**, `despeckle` -/
theorem C108_despeckle (data : Ref) (shape : List Nat) (bad : α) (ng : Int) (h : Heap α) :
    Unchanged h (despeckleH data shape bad ng h).2 ∧
    ∀ r, (despeckleH data shape bad ng h).1 = .ok (some r) → IsNew h r := by
  obtain ⟨a, b⟩ := Keeps.spec (fun n => despeckleH_keeps n data shape bad ng) h
  exact ⟨a, fun r e => isNew_of_le (b _ e r rfl)⟩

/-- **C108**, `second_trip_filter_magnetron` -/
theorem C108_second_trip (vr : Ref) (bad : α) (h : Heap α) :
    Unchanged h (secondTripFilterH vr bad h).2 ∧ ∀ r, (secondTripFilterH vr bad h).1 = .ok r → IsNew h r := by
  have k : ∀ n, Keeps n (secondTripFilterH vr bad) (n ≤ ·) := fun n => by
    unfold secondTripFilterH
    keeps
  obtain ⟨a, b⟩ := Keeps.spec k h
  exact ⟨a, fun r e => isNew_of_le (b _ e)⟩

/-- **C108**, `differential_phase_filter` -/
theorem C108_diff_phase (sdp thresh : Ref) (h : Heap α) :
    Unchanged h (diffPhaseFilterArrH sdp thresh h).2 ∧ ∀ r, (diffPhaseFilterArrH sdp thresh h).1 = .ok r → IsNew h r := by
  have k : ∀ n, Keeps n (diffPhaseFilterArrH (α := α) sdp thresh) (n ≤ ·) := fun n => by
    unfold diffPhaseFilterArrH
    keeps
  obtain ⟨a, b⟩ := Keeps.spec k h
  exact ⟨a, fun r e => isNew_of_le (b _ e)⟩

theorem calcRainNexradH_keeps (n : Nat) (dz : Ref) (t a b : α) : Keeps n (calcRainNexradH dz t a b) (n ≤ ·) := by
  unfold calcRainNexradH
  keeps
  exact Keeps.pure (by assumption)

theorem calcZdpH_keeps (n : Nat) (zh zv : List α) : Keeps n (calcZdpH zh zv) (n ≤ ·) := by
  unfold calcZdpH
  keeps

theorem getDeltaThreshH_keeps (n : Nat) (z : Ref) (f : α) : Keeps n (getDeltaThreshH z f) (n ≤ ·) := by
  unfold getDeltaThreshH
  keeps
  exact Keeps.pure (by assumption)

theorem ravel_keeps (n : Nat) (c : Bool) (r : Ref) : Keeps n (ravel c r : HM α Ref) (fun _ => True) := by
  unfold ravel
  split
  · exact Keeps.pure trivial
  · keeps
    exact Keeps.newF.weaken fun _ _ => trivial

theorem tempsH_keeps (n : Nat) (c : Bool) (t : Option Ref) : Keeps n (tempsH c t : HM α _) (fun _ => True) := by
  unfold tempsH
  cases t with
  | none => exact Keeps.pure trivial
  | some t =>
    refine Keeps.bind (ravel_keeps n _ _) fun _ _ => ?_
    keeps
    exact Keeps.pure trivial

theorem liquidIceCalcsH_keeps (n : Nat) (dbz zdr dt : Ref) (fa fb : Option α) :
    Keeps n (liquidIceCalcsH dbz zdr dt fa fb) (fun r => n ≤ r.1 ∧ n ≤ r.2) := by
  unfold liquidIceCalcsH
  keeps
  refine Keeps.bind (calcZdpH_keeps n _ _) fun _ _ => ?_
  keeps
  exact Keeps.pure ⟨by assumption, by assumption⟩

theorem calcLiquidIceMassH_keeps (n : Nat) (argsort : List α → List Nat) (polyfit1 : List α → List α → α) (contiguous : Fin 4 → Bool)
    (dbz zdr z : Ref) (T : Option Ref) (hfrz fitA fitB : Option α) :
    Keeps n (calcLiquidIceMassH argsort polyfit1 contiguous dbz zdr z T hfrz fitA fitB)
      (fun o => ∀ r, o = some r → n ≤ r.1 ∧ n ≤ r.2) := by
  unfold calcLiquidIceMassH
  refine Keeps.bind (ravel_keeps n _ _) fun _ _ => ?_
  refine Keeps.bind (ravel_keeps n _ _) fun _ _ => ?_
  refine Keeps.bind (ravel_keeps n _ _) fun _ _ => ?_
  refine Keeps.bind (tempsH_keeps n _ _) fun _ _ => ?_
  keeps
  split
  · exact Keeps.pure (fun _ e => by cases e)
  · refine Keeps.bind (getDeltaThreshH_keeps n _ _) fun _ _ => ?_
    refine Keeps.bind (liquidIceCalcsH_keeps n _ _ _ _ _) fun _ hr => ?_
    exact Keeps.pure (by rintro r ⟨⟩; exact hr)

/-- **C108**, `calc_liquid_ice_mass`, for contiguous arguments (whose `ravel` is the argument itself) and others -/
theorem C108_liquid_ice (argsort : List α → List Nat) (polyfit1 : List α → List α → α) (contiguous : Fin 4 → Bool)
    (dbz zdr z : Ref) (T : Option Ref) (hfrz fitA fitB : Option α) (h : Heap α) :
    Unchanged h (calcLiquidIceMassH argsort polyfit1 contiguous dbz zdr z T hfrz fitA fitB h).2 ∧
    ∀ w i, (calcLiquidIceMassH argsort polyfit1 contiguous dbz zdr z T hfrz fitA fitB h).1 = .ok (some (w, i)) →
      IsNew h w ∧ IsNew h i := by
  obtain ⟨a, b⟩ := Keeps.spec (fun n => calcLiquidIceMassH_keeps n argsort polyfit1 contiguous dbz zdr z T hfrz fitA fitB) h
  exact ⟨a, fun w i e => ⟨isNew_of_le (b _ e _ rfl).1, isNew_of_le (b _ e _ rfl).2⟩⟩

theorem blendedH_keeps (n : Nat) (P : Rain.Params α) (band : String) (dz zdr kdp : Ref) :
    Keeps n (blendedH P band dz zdr kdp) (fun r => n ≤ r.1 ∧ n ≤ r.2.1 ∧ ∀ q, r.2.2 = some q → n ≤ q.1 ∧ n ≤ q.2) := by
  unfold blendedH
  keeps
  refine Keeps.bind (calcRainNexradH_keeps n _ _ _ _) fun _ _ => ?_
  keeps
  split
  · keeps
    refine Keeps.bind (calcZdpH_keeps n _ _) fun _ _ => ?_
    keeps
    refine Keeps.bind (calcRainNexradH_keeps n _ _ _ _) fun _ _ => ?_
    keeps
    exact Keeps.pure ⟨by assumption, by assumption, by rintro _ ⟨⟩; exact ⟨by assumption, by assumption⟩⟩
  · keeps
    exact Keeps.pure ⟨by assumption, by assumption, by rintro _ ⟨⟩⟩

/-- **C108**, `calc_blended_rain` -/
theorem C108_blended (P : Rain.Params α) (band : String) (dz zdr kdp : Ref) (h : Heap α) :
    Unchanged h (blendedH P band dz zdr kdp h).2 ∧
    ∀ r m o, (blendedH P band dz zdr kdp h).1 = .ok (r, m, o) →
      IsNew h r ∧ IsNew h m ∧ ∀ zdp fi, o = some (zdp, fi) → IsNew h zdp ∧ IsNew h fi := by
  obtain ⟨a, b⟩ := Keeps.spec (fun n => blendedH_keeps n P band dz zdr kdp) h
  refine ⟨a, fun r m o e => ?_⟩
  obtain ⟨x, y, z⟩ := b _ e
  exact ⟨isNew_of_le x, isNew_of_le y, fun zdp fi e => ⟨isNew_of_le (z _ e).1, isNew_of_le (z _ e).2⟩⟩

theorem hidroH_keeps (n : Nat) (P : Rain.Params α) (band : String) (dz zdr kdp fhc : Ref) :
    Keeps n (hidroH P band dz zdr kdp fhc) (fun r => n ≤ r.1 ∧ n ≤ r.2) := by
  unfold hidroH
  keeps
  refine Keeps.bind (calcRainNexradH_keeps n _ _ _ _) fun _ _ => ?_
  keeps
  split
  · keeps
    exact Keeps.pure ⟨by assumption, by assumption⟩
  · keeps
    exact Keeps.pure ⟨by assumption, by assumption⟩

/-- **C108**, `csu_hidro_rain` -/
theorem C108_hidro (P : Rain.Params α) (band : String) (dz zdr kdp fhc : Ref) (h : Heap α) :
    Unchanged h (hidroH P band dz zdr kdp fhc h).2 ∧
    ∀ r m, (hidroH P band dz zdr kdp fhc h).1 = .ok (r, m) → IsNew h r ∧ IsNew h m := by
  obtain ⟨a, b⟩ := Keeps.spec (fun n => hidroH_keeps n P band dz zdr kdp fhc) h
  exact ⟨a, fun r m e => ⟨isNew_of_le (b _ e).1, isNew_of_le (b _ e).2⟩⟩

theorem tropZH_keeps (n : Nat) (dt : DType) (c : List Bool) (a b d : List α) (r meth : Ref) (hr : n ≤ r) (hm : n ≤ meth) (cs : Option Ref) :
    Keeps n (tropZH dt c a b d r meth cs) (fun _ => True) := by
  unfold tropZH
  cases cs <;> dsimp only <;> keeps

theorem tropFhcH_keeps (n : Nat) (dt : DType) (c : List Bool) (a : List α) (r meth : Ref) (hr : n ≤ r) (hm : n ≤ meth) (f : Option Ref) :
    Keeps n (tropFhcH dt c a r meth f) (fun _ => True) := by
  unfold tropFhcH
  cases f with
  | none => exact Keeps.pure trivial
  | some f => dsimp only; keeps

theorem tropicalH_keeps (n : Nat) (P : Rain.TropParams α) (predef band : String) (dz zdr kdp : Ref) (cs fhc : Option Ref) :
    Keeps n (tropicalH P predef band dz zdr kdp cs fhc) (fun r => n ≤ r.1 ∧ n ≤ r.2) := by
  unfold tropicalH
  keeps
  refine Keeps.bind (tropZH_keeps n _ _ _ _ _ _ _ (by assumption) (by assumption) _) fun _ _ => ?_
  keeps
  refine Keeps.bind (tropFhcH_keeps n _ _ _ _ _ (by assumption) (by assumption) _) fun _ _ => ?_
  keeps
  exact Keeps.pure ⟨by assumption, by assumption⟩

/-- **C108**, `calc_blended_rain_tropical` -/
theorem C108_tropical (P : Rain.TropParams α) (predef band : String) (dz zdr kdp : Ref) (cs fhc : Option Ref) (h : Heap α) :
    Unchanged h (tropicalH P predef band dz zdr kdp cs fhc h).2 ∧
    ∀ r m, (tropicalH P predef band dz zdr kdp cs fhc h).1 = .ok (r, m) → IsNew h r ∧ IsNew h m := by
  obtain ⟨a, b⟩ := Keeps.spec (fun n => tropicalH_keeps n P predef band dz zdr kdp cs fhc) h
  exact ⟨a, fun r m e => ⟨isNew_of_le (b _ e).1, isNew_of_le (b _ e).2⟩⟩

theorem cband2009H_keeps (n : Nat) (dz zdr : Ref) :
    Keeps n (cband2009H dz zdr : HM α _) (fun r => n ≤ r.1 ∧ n ≤ r.2.1 ∧ n ≤ r.2.2) := by
  unfold cband2009H
  keeps
  exact Keeps.pure ⟨by assumption, by assumption, by assumption⟩

theorem sband2013H_keeps (n : Nat) (dz zdr : Ref) :
    Keeps n (sband2013H dz zdr : HM α _) (fun r => n ≤ r.1 ∧ n ≤ r.2.1 ∧ n ≤ r.2.2) := by
  unfold sband2013H
  keeps
  exact Keeps.pure ⟨by assumption, by assumption, by assumption⟩

theorem assign3H_keeps (n : Nat) (m : List Bool) (v : List (α × α × α)) (a b c : Ref) (ha : n ≤ a) (hb : n ≤ b) (hc : n ≤ c) :
    Keeps n (assign3H m v a b c) (fun _ => True) := by
  unfold assign3H
  keeps

theorem sband2004H_keeps (n : Nat) (dz zdr kdp : Ref) :
    Keeps n (sband2004H dz zdr kdp : HM α _) (fun r => n ≤ r.1 ∧ n ≤ r.2.1 ∧ n ≤ r.2.2) := by
  unfold sband2004H
  keeps
  refine Keeps.bind (assign3H_keeps n _ _ _ _ _ (by assumption) (by assumption) (by assumption)) fun _ _ => ?_
  keeps
  refine Keeps.bind (assign3H_keeps n _ _ _ _ _ (by assumption) (by assumption) (by assumption)) fun _ _ => ?_
  keeps
  refine Keeps.bind (assign3H_keeps n _ _ _ _ _ (by assumption) (by assumption) (by assumption)) fun _ _ => ?_
  keeps
  refine Keeps.bind (assign3H_keeps n _ _ _ _ _ (by assumption) (by assumption) (by assumption)) fun _ _ => ?_
  exact Keeps.pure ⟨by assumption, by assumption, by assumption⟩

theorem calcDsdH_keeps (n : Nat) (band method : String) (dz zdr kdp : Ref) :
    Keeps n (calcDsdH band method dz zdr kdp : HM α _) (fun o => ∀ r, o = some r → n ≤ r.1 ∧ n ≤ r.2.1 ∧ n ≤ r.2.2) := by
  unfold calcDsdH
  repeat' split
  · exact Keeps.bind (sband2013H_keeps n dz zdr) fun _ h => Keeps.pure (by rintro r ⟨⟩; exact h)
  · exact Keeps.bind (sband2004H_keeps n dz zdr kdp) fun _ h => Keeps.pure (by rintro r ⟨⟩; exact h)
  · exact Keeps.bind (cband2009H_keeps n dz zdr) fun _ h => Keeps.pure (by rintro r ⟨⟩; exact h)
  · exact Keeps.pure (by rintro r ⟨⟩)

/-- **C108**, `calc_dsd` -/
theorem C108_dsd (band method : String) (dz zdr kdp : Ref) (h : Heap α) :
    Unchanged h (calcDsdH band method dz zdr kdp h).2 ∧
    ∀ d0 nw mu, (calcDsdH band method dz zdr kdp h).1 = .ok (some (d0, nw, mu)) → IsNew h d0 ∧ IsNew h nw ∧ IsNew h mu := by
  obtain ⟨a, b⟩ := Keeps.spec (fun n => calcDsdH_keeps n band method dz zdr kdp) h
  refine ⟨a, fun r m o e => ?_⟩
  obtain ⟨x, y, z⟩ := b _ e _ rfl
  exact ⟨isNew_of_le x, isNew_of_le y, isNew_of_le z⟩

/-- **C108**, `zdp` of `fundamentals.py` -/
theorem C108_zdp (zh zv : Ref) (h : Heap α) :
    Unchanged h (zdpH zh zv h).2 ∧ ∀ r, (zdpH zh zv h).1 = .ok r → IsNew h r := by
  have k : ∀ n, Keeps n (zdpH (α := α) zh zv) (n ≤ ·) := fun n => by
    unfold zdpH
    keeps
    split
    · keeps
    · keeps
      exact Keeps.pure (by assumption)
  obtain ⟨a, b⟩ := Keeps.spec k h
  exact ⟨a, fun r e => isNew_of_le (b _ e)⟩

/-- **C108**, `hdr` of `fundamentals.py` -/
theorem C108_hdr (dbzH zdr : Ref) (h : Heap α) :
    Unchanged h (hdrH dbzH zdr h).2 ∧ ∀ r, (hdrH dbzH zdr h).1 = .ok r → IsNew h r := by
  have k : ∀ n, Keeps n (hdrH (α := α) dbzH zdr) (n ≤ ·) := fun n => by
    unfold hdrH
    keeps
  obtain ⟨a, b⟩ := Keeps.spec k h
  exact ⟨a, fun r e => isNew_of_le (b _ e)⟩

theorem getHidTrapsH_keeps (n : Nat) (c : Int) (x : Ref) :
    Keeps n (getHidTrapsH c x : HM α _) (fun o => ∀ r, o = some r → n ≤ r) := by
  unfold getHidTrapsH
  dsimp only
  repeat' split
  all_goals first
    | exact Keeps.pure (by rintro r ⟨⟩)
    | refine Keeps.bind (Q := (n ≤ ·)) ?_ fun _ h => Keeps.pure (by rintro r ⟨⟩; exact h)
  all_goals
    first
    | unfold tTrapDzH | unfold tTrapRainH | unfold tTrapIcH | unfold tTrapAggH | unfold tTrapWsH | unfold tTrapLdgH | unfold tTrapHdgH
    | unfold tTrapHaH | unfold tTrapBdH
    keeps
    exact Keeps.pure (by assumption)

/-- **C108**, the temperature trapezoids `get_hid_traps` -/
theorem C108_traps (c : Int) (x : Ref) (h : Heap α) :
    Unchanged h (getHidTrapsH c x h).2 ∧ ∀ r, (getHidTrapsH c x h).1 = .ok (some r) → IsNew h r := by
  obtain ⟨a, b⟩ := Keeps.spec (fun n => getHidTrapsH_keeps n c x) h
  exact ⟨a, fun r e => isNew_of_le (b _ e r rfl)⟩

/-! ## Concrete calls -/

/-- a heap with one float array and one Boolean array -/
def demo : Heap QF := [.flt .float [1, 0, -5, 3, 3], .bool [true, false, false, false, true]]

/-- the same array for both arguments of `hdr`: the result is new and the argument is as it was -/
example : (hdrH 0 0 demo).1 = .ok 3 ∧ (hdrH 0 0 demo).2[0]? = demo[0]? ∧
    (hdrH 0 0 demo).2[3]? = some (.flt .float [-45, -27, -32, -57, -57]) := by decide +kernel

/-- the same array for both arguments of `insect_filter`, with the caller's mask -/
example : (insectFilterH 0 0 (some 1) Misc.defaultDzRange Misc.defaultDrThresh (-32768) demo).1 = .ok 13 ∧
    (insectFilterH 0 0 (some 1) Misc.defaultDzRange Misc.defaultDrThresh (-32768) demo).2[13]? =
      some (.bool [true, false, false, true, true]) ∧
    (insectFilterH 0 0 (some 1) Misc.defaultDzRange Misc.defaultDrThresh (-32768) demo).2[1]? = demo[1]? := by decide +kernel

/-- no thresholds: the caller's mask itself comes back -/
example : (insectFilterH 0 0 (some 1) [] [] (-32768) demo).1 = .ok 1 := by decide +kernel

/-- a failing call (fewer ranges than thresholds) leaves the caller's arrays too -/
example : (insectFilterH 0 0 none [] Misc.defaultDrThresh (-32768) demo).1 = .error .indexError ∧
    (insectFilterH 0 0 none [] Misc.defaultDrThresh (-32768) demo).2.take 2 = demo := by decide +kernel

/-- `despeckle` writes 0 and 1 into its copy, not into the data -/
example : (despeckleH 0 [5] (-5) 2 demo).1 = .ok (some 5) ∧ (despeckleH 0 [5] (-5) 2 demo).2[0]? = demo[0]? ∧
    (despeckleH 0 [5] (-5) 2 demo).2[5]? = some (.bool [true, true, true, true, true]) ∧
    (despeckleH 0 [5] (-5) 2 demo).2[2]? = some (.flt .float [1, 1, 0, 1, 1]) := by decide +kernel

/-- `calc_blended_rain` at C band with one array for all three arguments -/
example : (blendedH Rain.Params.default "C" 0 0 0 demo).1 = .ok (2, 3, none) ∧
    (blendedH Rain.Params.default "C" 0 0 0 demo).2[0]? = demo[0]? ∧
    (blendedH Rain.Params.default "C" 0 0 0 demo).2[3]? = some (.int [4, 4, 4, 4, 4]) := by decide +kernel

end Csu.Heap
