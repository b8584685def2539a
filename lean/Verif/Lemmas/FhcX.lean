import Verif.Lemmas.Fhc
import Verif.Spec.Fhc
import Verif.XReal
import Mathlib.Tactic.Linarith
import Mathlib.Tactic.NormNum
import Mathlib.Tactic.Positivity
import Mathlib.Tactic.FieldSimp
/-! # The classifiers on finite values: model equals specification -/
namespace Csu.Fhc
open Csu PyFloat Tables XR FhcSpec

theorem fpow_two (y : ℝ) : (fin y ^ (2.0 : XR) : XR) = fin (y ^ 2) := by
  rw [fsci, show ((2.0 : ℝ)) = 2 by norm_num, fpow_def, powFin]
  split_ifs with h1 h2 h3 h4 h5
  · rw [← Real.rpow_natCast]; norm_num
  · simp [h2]
  · norm_num at h3
  · norm_num at h3
  · have : ⌊(2 : ℝ)⌋ = 2 := by norm_num
    rw [this]; norm_cast
  · exfalso; apply h5; norm_num

/-- the row with the parameters of a bell -/
noncomputable def xrow (B : Bell) : Row XR := ⟨fin B.m, fin B.a, fin B.b⟩

theorem beta_fin (B : Bell) (ha : B.a ≠ 0) (hb : 0 < B.b) (x : ℝ) : beta (xrow B) (fin x) = fin (B.mu x) := by
  have h0 : (0 : ℝ) ≤ ((x - B.m) / B.a) ^ 2 := sq_nonneg _
  have h1 : (0 : ℝ) ≤ (((x - B.m) / B.a) ^ 2) ^ B.b := Real.rpow_nonneg h0 _
  simp only [beta, xrow, fsub]
  rw [fdiv ha, fpow_two, fpow_nonneg h0 hb, fsci, show ((1.0 : ℝ)) = 1 by norm_num, fadd, fdiv (by linarith)]
  rfl

theorem mu_pos (B : Bell) (x : ℝ) : 0 < B.mu x := by
  have h0 : (0 : ℝ) ≤ ((x - B.m) / B.a) ^ 2 := sq_nonneg _
  have h1 : (0 : ℝ) ≤ (((x - B.m) / B.a) ^ 2) ^ B.b := Real.rpow_nonneg h0 _
  unfold Bell.mu; positivity

theorem mu_le_one (B : Bell) (x : ℝ) : B.mu x ≤ 1 := by
  have h0 : (0 : ℝ) ≤ ((x - B.m) / B.a) ^ 2 := sq_nonneg _
  have h1 : (0 : ℝ) ≤ (((x - B.m) / B.a) ^ 2) ^ B.b := Real.rpow_nonneg h0 _
  unfold Bell.mu
  rw [div_le_one (by linarith)]; linarith

theorem mu_centre (B : Bell) (hb : 0 < B.b) : B.mu B.m = 1 := by
  simp [Bell.mu, Real.zero_rpow hb.ne']

theorem mu_lt_one (B : Bell) (ha : B.a ≠ 0) {x : ℝ} (h : x ≠ B.m) : B.mu x < 1 := by
  have hne : (x - B.m) / B.a ≠ 0 := div_ne_zero (sub_ne_zero.mpr h) ha
  have h0 : (0 : ℝ) < ((x - B.m) / B.a) ^ 2 := by positivity
  have h1 : (0 : ℝ) < (((x - B.m) / B.a) ^ 2) ^ B.b := Real.rpow_pos_of_pos h0 _
  unfold Bell.mu
  rw [div_lt_one (by linarith)]; linarith

theorem foldl_fin (l : List ℝ) (a : ℝ) : (l.map fin).foldl (· + ·) (fin a) = fin (a + l.sum) := by
  induction l generalizing a with
  | nil => simp
  | cons x xs ih => simp only [List.map_cons, List.foldl_cons, fadd, ih, List.sum_cons]; rw [add_assoc]

theorem npSum_fin (l : List ℝ) : npSum (l.map fin) = fin l.sum := by
  have := foldl_fin l 0
  rw [zero_add] at this
  unfold npSum
  rw [fzero]
  exact this

theorem npSum_fin' {ι : Type} (ks : List ι) (f : ι → XR) (g : ι → ℝ) (h : ∀ k ∈ ks, f k = fin (g k)) :
    npSum (ks.map f) = fin (ks.map g).sum := by
  rw [← npSum_fin, List.map_map]
  congr 1
  exact List.map_congr_left h

/-- The configuration holds finite parameters, at species `c`. -/
structure FinCfg (C : Cfg XR) (P : Key → Bool) (w : Key → ℝ) (B : Key → Bell) (c : Nat) : Prop where
  data : ∀ k, (C.data k).isSome = P k
  vars : ∀ k, C.vars k = if P k && (k != .T || C.useTemp) then 1 else 0
  w : ∀ k, C.w k c = fin (w k)
  set : ∀ k, P k = true → (k = .T → C.useTemp = true) →
    ∃ rows, C.sets k = some rows ∧ rows[c]? = some (xrow (B k)) ∧ (B k).a ≠ 0 ∧ 0 < (B k).b
  dz : P .DZ = true
  temp : C.useTemp = true → P .T = true

variable {C : Cfg XR} {P : Key → Bool} {w : Key → ℝ} {B : Key → Bell} {c : Nat}

theorem gMember_fin (h : FinCfg C P w B c) (k : Key) (hk : P k = true) (hT : k = .T → C.useTemp = true)
    (x : Key → ℝ) : gMember C.sets c k (fun k => fin (x k)) = fin ((B k).mu (x k)) := by
  obtain ⟨rows, h1, h2, h3, h4⟩ := h.set k hk hT
  simp [gMember, h1, h2, beta_fin _ h3 h4]

theorem sum_filter_ite (ks : List Key) (p : Key → Bool) (f : Key → ℝ) :
    (ks.map (fun k => (if p k then 1 else 0) * f k)).sum = ((ks.filter p).map f).sum := by
  induction ks with
  | nil => rfl
  | cons k ks ih =>
    rw [List.map_cons, List.sum_cons, ih, List.filter_cons]
    by_cases hk : p k = true <;> simp [hk]

theorem varlist_eq (b : Bool) : varlist b = if b then pol else allKeys := rfl

theorem weightSum_fin (h : FinCfg C P w B c) :
    weightSum C c = fin (totalWeight C.hybrid P C.useTemp w) := by
  unfold weightSum totalWeight
  rw [npSum_fin' _ _ (fun k => (if P k && (k != .T || C.useTemp) then 1 else 0) * w k)]
  · rw [sum_filter_ite, varlist_eq]
  · intro k _
    rw [h.vars, h.w]
    split_ifs <;> simp

theorem polFlag_fin (h : FinCfg C P w B c) : polFlag C = !((pol.filter P).isEmpty) := by
  unfold polFlag
  simp only [h.vars]
  cases h1 : P .DR <;> cases h2 : P .KD <;> cases h3 : P .RH <;> cases h4 : P .LD <;>
    simp [pol, h1, h2, h3, h4]

theorem filter_pol (P : Key → Bool) (u : Bool) :
    pol.filter (fun k => P k && (k != .T || u)) = pol.filter P := by
  simp [pol, List.filter_cons]

theorem usedKeys_fin (h : FinCfg C P w B c) : usedKeys C = (if C.hybrid then pol else allKeys).filter P := by
  unfold usedKeys
  rw [varlist_eq]
  congr 1
  funext k
  exact h.data k

theorem gPol_fin (h : FinCfg C P w B c) (ht : C.trap = false) (hlin : C.hybrid = false → P .T = true → C.useTemp = true)
    (hw : totalWeight C.hybrid P C.useTemp w ≠ 0) (x : Key → ℝ) :
    gPol C c (fun k => fin (x k)) =
      fin (wmean ((if C.hybrid then pol else allKeys).filter (fun k => P k && (k != .T || C.useTemp))) w
        (fun k => (B k).mu (x k))) := by
  have hkeys : (if C.hybrid then pol else allKeys).filter P =
      (if C.hybrid then pol else allKeys).filter (fun k => P k && (k != .T || C.useTemp)) := by
    by_cases hh : C.hybrid = true
    · rw [hh]; exact (filter_pol P _).symm
    · have hl := hlin (by simpa using hh)
      apply List.filter_congr
      intro k _
      by_cases hk : P k = true
      · by_cases hkT : k = .T
        · subst hkT; simp [hk, hl hk]
        · simp [hk, hkT]
      · simp [hk]
  unfold gPol
  rw [weightSum_fin h, usedKeys_fin h, hkeys,
    npSum_fin' _ _ (fun k => w k * (B k).mu (x k)), fdiv hw]
  · rfl
  · intro k hk
    rw [List.mem_filter] at hk
    have hk2 := hk.2
    simp only [Bool.and_eq_true, Bool.or_eq_true, bne_iff_ne, ne_eq] at hk2
    have hT : k = .T → C.useTemp = true := fun e => hk2.2.resolve_left (by simp [e])
    have hv : C.vars k = 1 := by rw [h.vars, if_pos hk.2]
    simp [gTerm, ht, hv, h.w, gMember_fin h k hk2.1 hT]

theorem gScore_fin (h : FinCfg C P w B c) (ht : C.trap = false) (hlin : C.hybrid = false → P .T = true → C.useTemp = true)
    (hpol : C.hybrid = true → pol.filter P ≠ [] → totalWeight true P C.useTemp w ≠ 0)
    (hw : C.hybrid = false → totalWeight false P C.useTemp w ≠ 0) (x : Key → ℝ) :
    gScore C c (fun k => fin (x k)) = fin (score C.hybrid P C.useTemp w (fun k => (B k).mu (x k))) := by
  unfold gScore score
  by_cases hh : C.hybrid = true
  · have hD := gMember_fin h .DZ h.dz (by simp) x
    simp only [hh, if_true, hybridScore]
    rw [polFlag_fin h, hD]
    by_cases hp : pol.filter P = []
    · by_cases hT : C.useTemp = true
      · simp [hp, hT, gMember_fin h .T (h.temp hT) (fun _ => hT) x]
      · simp [hp, hT]
    · have hpe : (pol.filter P).isEmpty = false := by simpa using hp
      have hg := gPol_fin h ht hlin (by rw [hh]; exact hpol hh hp) x
      rw [hh] at hg
      simp only [if_true, filter_pol] at hg
      by_cases hT : C.useTemp = true
      · simp [hp, hpe, hT, hg, gMember_fin h .T (h.temp hT) (fun _ => hT) x]
      · simp [hp, hpe, hT, hg]
  · have hh' : C.hybrid = false := by simpa using hh
    have hg := gPol_fin h ht hlin (by rw [hh']; exact hw hh') x
    simp only [hh', Bool.false_eq_true, if_false] at hg ⊢
    rw [hg]; rfl

end Csu.Fhc
