import Verif.Props.Fhc3
/-!
# C24: weights act only by ratio
-/
namespace Csu.Fhc
open Csu PyFloat Tables XR FhcSpec

/-- never negative, never minus infinity -/
def NN (y : XR) : Prop := y = XR.nan ∨ y = pinf ∨ ∃ v : ℝ, 0 ≤ v ∧ y = fin v

theorem two_eq : (2.0 : XR) = fin 2 := by rw [fsci]; norm_num

theorem nn_sq (z : XR) : NN (z ^ (2.0 : XR)) := by
  cases z with
  | nan => left; rw [two_eq]; exact nan_pow (by norm_num)
  | fin r => right; right; exact ⟨r ^ 2, sq_nonneg r, fpow_two r⟩
  | pinf =>
    right; left; rw [two_eq]
    show XR.pow pinf (fin 2) = pinf
    simp [XR.pow]
  | ninf =>
    right; left; rw [two_eq]
    show XR.pow ninf (fin 2) = pinf
    have : ⌊(2 : ℝ)⌋ = 2 := by norm_num
    simp [XR.pow, this]

theorem nn_pow {y : XR} (h : NN y) (b : XR) : NN (y ^ b) := by
  have z0 : NN (fin 0) := Or.inr (Or.inr ⟨0, le_rfl, rfl⟩)
  have z1 : NN (fin 1) := Or.inr (Or.inr ⟨1, zero_le_one, rfl⟩)
  have zp : NN pinf := Or.inr (Or.inl rfl)
  have zn : NN XR.nan := Or.inl rfl
  rcases h with rfl | rfl | ⟨v, hv, rfl⟩
  · show NN (XR.pow XR.nan b)
    cases b <;> simp only [XR.pow] <;> (try split_ifs) <;> assumption
  · show NN (XR.pow pinf b)
    cases b <;> simp only [XR.pow] <;> (try split_ifs) <;> assumption
  · show NN (XR.pow (fin v) b)
    cases b with
    | fin y =>
      simp only [XR.pow, powFin]
      split_ifs with h1 h2
      · exact Or.inr (Or.inr ⟨_, Real.rpow_nonneg hv _, rfl⟩)
      · assumption
      · assumption
      · assumption
      · exact absurd (lt_of_le_of_ne hv (Ne.symm ‹_›)) h1
      · assumption
    | nan => simp only [XR.pow]; split_ifs <;> assumption
    | pinf => simp only [XR.pow]; split_ifs <;> assumption
    | ninf => simp only [XR.pow]; split_ifs <;> assumption

/-- a membership value is NaN or a real number, whatever the parameters and the data -/
theorem beta_nonInf (r : Row XR) (x : XR) : beta r x = XR.nan ∨ ∃ v : ℝ, beta r x = fin v := by
  have h := nn_pow (nn_sq ((x - r.m) / r.a)) r.b
  have hone : (1.0 : XR) = fin 1 := by rw [fsci]; norm_num
  unfold beta
  rw [hone]
  rcases h with h | h | ⟨v, hv, h⟩ <;> rw [h]
  · left; simp
  · right; exact ⟨0, rfl⟩
  · right; rw [fadd, fdiv (by linarith)]; exact ⟨_, rfl⟩

/-- `b` is `lam` times `a`, or both are NaN -/
def Sc (lam : ℝ) (a b : XR) : Prop := (a = XR.nan ∧ b = XR.nan) ∨ ∃ r : ℝ, a = fin r ∧ b = fin (lam * r)

theorem Sc.add {lam : ℝ} {a b c d : XR} (h : Sc lam a b) (h' : Sc lam c d) : Sc lam (a + c) (b + d) := by
  rcases h with ⟨rfl, rfl⟩ | ⟨r, rfl, rfl⟩
  · left; simp
  · rcases h' with ⟨rfl, rfl⟩ | ⟨s, rfl, rfl⟩
    · left; simp
    · right; exact ⟨r + s, by simp, by simp [mul_add]⟩

theorem Sc.div {lam : ℝ} (hl : 0 < lam) {a b : XR} {W : ℝ} (h : Sc lam a b) : b / fin (lam * W) = a / fin W := by
  rcases h with ⟨rfl, rfl⟩ | ⟨r, rfl, rfl⟩
  · simp
  · rw [fdiv_def, fdiv_def]
    by_cases hW : W = 0
    · simp only [hW, mul_zero, if_true, infOfSign, mul_pos_iff_of_pos_left hl]
      have : lam * r < 0 ↔ r < 0 := by
        constructor
        · intro h; by_contra hc; have := mul_nonneg hl.le (not_lt.mp hc); linarith
        · intro h; exact mul_neg_of_pos_of_neg hl h
      simp only [this]
    · rw [if_neg hW, if_neg (mul_ne_zero hl.ne' hW), mul_div_mul_left _ _ hl.ne']

/-- results of the scoring steps, related elementwise -/
def ScE (lam : ℝ) : Except PyErr (List XR) → Except PyErr (List XR) → Prop
  | .error e, .error e' => e = e'
  | .ok a, .ok b => List.Forall₂ (Sc lam) a b
  | _, _ => False

/-- rows of results, related elementwise -/
def ScEE (lam : ℝ) : Except PyErr (List (List XR)) → Except PyErr (List (List XR)) → Prop
  | .error e, .error e' => e = e'
  | .ok a, .ok b => List.Forall₂ (List.Forall₂ (Sc lam)) a b
  | _, _ => False

theorem ScEE.mapM {ι : Type} {lam : ℝ} (F G : ι → Except PyErr (List XR)) (ks : List ι)
    (h : ∀ k ∈ ks, ScE lam (F k) (G k)) : ScEE lam (ks.mapM F) (ks.mapM G) := by
  induction ks with
  | nil => exact List.Forall₂.nil
  | cons k ks ih =>
    have hk := h k (by simp)
    have ih := ih (fun k hk => h k (by simp [hk]))
    rw [List.mapM_cons, List.mapM_cons]
    cases hF : F k <;> cases hG : G k <;> rw [hF, hG] at hk
    · exact hk
    · exact hk.elim
    · exact hk.elim
    · cases hF' : ks.mapM F <;> cases hG' : ks.mapM G <;> rw [hF', hG'] at ih
      · exact ih
      · exact ih.elim
      · exact ih.elim
      · exact List.Forall₂.cons hk ih

theorem forall₂_zipWith {lam : ℝ} {a a' b b' : List XR} (h : List.Forall₂ (Sc lam) a a')
    (h' : List.Forall₂ (Sc lam) b b') :
    List.Forall₂ (Sc lam) (List.zipWith (· + ·) a b) (List.zipWith (· + ·) a' b') := by
  induction h generalizing b b' with
  | nil => exact List.Forall₂.nil
  | cons h1 _ ih =>
    cases h' with
    | nil => exact List.Forall₂.nil
    | cons h2 t2 => exact List.Forall₂.cons (h1.add h2) (ih t2)

theorem ScE.sumAxis0 {lam : ℝ} {sz : Nat} {a b : List (List XR)} (h : List.Forall₂ (List.Forall₂ (Sc lam)) a b) :
    ScE lam (sumAxis0 sz a) (sumAxis0 sz b) := by
  have hl : a.all (fun r => r.length == sz) = b.all (fun r => r.length == sz) := by
    induction h with
    | nil => rfl
    | cons h1 _ ih => simp only [List.all_cons, ih, h1.length_eq]
  unfold Fhc.sumAxis0
  rw [hl]
  split_ifs with hsz
  · show List.Forall₂ _ _ _
    have h0 : ∀ (n : Nat), List.Forall₂ (Sc lam) (List.replicate n (0 : XR)) (List.replicate n 0) := by
      intro n
      induction n with
      | zero => exact List.Forall₂.nil
      | succ n ih => exact List.Forall₂.cons (Or.inr ⟨0, by simp, by simp⟩) ih
    have : ∀ acc acc', List.Forall₂ (Sc lam) acc acc' → List.Forall₂ (Sc lam)
        (a.foldl (fun acc r => List.zipWith (· + ·) acc r) acc)
        (b.foldl (fun acc r => List.zipWith (· + ·) acc r) acc') := by
      clear hl hsz
      induction h with
      | nil => intro acc acc' hacc; exact hacc
      | cons h1 _ ih =>
        intro acc acc' hacc
        simp only [List.foldl_cons]
        exact ih _ _ (forall₂_zipWith hacc h1)
    exact this _ _ (h0 sz)
  · rfl

variable {lam : ℝ} {C : Cfg XR} {w : Key → ℝ}

/-- the configuration with scaled weights -/
noncomputable def scaled (C : Cfg XR) (lam : ℝ) (w : Key → ℝ) : Cfg XR := { C with w := fun k _ => fin (lam * w k) }

theorem weighted_sc (hC : ∀ k c, C.w k c = fin (w k)) (k : Key) (c : Nat) :
    ScE lam (weighted C k c) (weighted (scaled C lam w) k c) := by
  unfold weighted
  have hm : member (scaled C lam w) k c = member C k c := rfl
  rw [hm]
  cases hmem : member C k c with
  | error e => rfl
  | ok b =>
    show List.Forall₂ _ _ _
    have hb : ∀ v ∈ b, v = XR.nan ∨ ∃ r : ℝ, v = fin r := by
      intro v hv
      unfold member at hmem
      split at hmem
      · cases hmem
      · split at hmem
        · cases hmem
        · split at hmem
          · cases hmem
          · unfold hidBetaF at hmem
            split_ifs at hmem
            · cases hmem; cases hv
            · cases hmem
              obtain ⟨x, _, rfl⟩ := List.mem_map.mp hv
              exact beta_nonInf _ _
    clear hmem
    induction b with
    | nil => exact List.Forall₂.nil
    | cons v b ih =>
      refine List.Forall₂.cons ?_ (ih (fun v hv => hb v (by simp [hv])))
      rcases hb v (by simp) with rfl | ⟨r, rfl⟩
      · left; simp
      · right
        refine ⟨(C.vars k : ℝ) * w k * r, ?_, ?_⟩
        · rw [hC]; simp
        · show PyFloat.ofNat (C.vars k) * fin (lam * w k) * fin r = _
          simp; ring

theorem weightSum_sc (hC : ∀ k c, C.w k c = fin (w k)) (c : Nat) :
    ∃ W : ℝ, weightSum C c = fin W ∧ weightSum (scaled C lam w) c = fin (lam * W) := by
  refine ⟨((varlist C.hybrid).map (fun k => (C.vars k : ℝ) * w k)).sum, ?_, ?_⟩
  · apply npSum_fin'
    intro k _; rw [hC]; simp
  · unfold weightSum
    show npSum ((varlist C.hybrid).map _) = _
    rw [npSum_fin' _ _ (fun k => lam * ((C.vars k : ℝ) * w k))]
    · rw [List.sum_map_mul_left]
    · intro k _
      show PyFloat.ofNat (C.vars k) * fin (lam * w k) = _
      simp; ring

theorem map_div_sc (hl : 0 < lam) {W : ℝ} {a b : List XR} (h : List.Forall₂ (Sc lam) a b) :
    b.map (fun v => v / fin (lam * W)) = a.map (fun v => v / fin W) := by
  induction h with
  | nil => rfl
  | cons h1 _ ih => simp only [List.map_cons, ih, h1.div hl]

theorem calculateTest_sc (hl : 0 < lam) (hC : ∀ k c, C.w k c = fin (w k)) (c : Nat) :
    calculateTest (scaled C lam w) c = calculateTest C c := by
  obtain ⟨W, h1, h2⟩ := weightSum_sc (lam := lam) hC c
  unfold calculateTest
  rw [h1, h2]
  have hk : usedKeys (scaled C lam w) = usedKeys C := rfl
  have hs : (scaled C lam w).sz = C.sz := rfl
  rw [hk, hs]
  have := ScEE.mapM _ _ (usedKeys C) (fun k _ => weighted_sc (lam := lam) hC k c)
  generalize (usedKeys C).mapM (fun k => weighted C k c) = r1 at this ⊢
  generalize (usedKeys C).mapM (fun k => weighted (scaled C lam w) k c) = r2 at this ⊢
  cases r1 <;> cases r2
  · cases this; rfl
  · exact this.elim
  · exact this.elim
  · rename_i a b
    have hs := ScE.sumAxis0 (sz := C.sz) this
    simp only [bind, Except.bind]
    generalize sumAxis0 C.sz a = s1 at hs ⊢
    generalize sumAxis0 C.sz b = s2 at hs ⊢
    cases s1 <;> cases s2
    · cases hs; rfl
    · exact hs.elim
    · exact hs.elim
    · simp only; rw [map_div_sc hl hs]

theorem trapRow_hybrid (C : Cfg XR) (c : Nat) {k : Key} (hk : k ≠ .T) : trapRow C c k = weighted C k c := by
  simp [trapRow, hk]

theorem mapM_congr' {ι β ε : Type} {F G : ι → Except ε β} {l : List ι} (h : ∀ k ∈ l, F k = G k) :
    l.mapM F = l.mapM G := by
  induction l with
  | nil => rfl
  | cons x xs ih => rw [List.mapM_cons, List.mapM_cons, h x (by simp), ih (fun k hk => h k (by simp [hk]))]

/-- with the hybrid method the trapezoid variant computes the same thing -/
theorem polTest_hybrid {α : Type} [PyFloat α] (C : Cfg α) (hh : C.hybrid = true) (c : Nat) :
    polTest C c = calculateTest C c := by
  unfold polTest
  split_ifs
  · unfold calculateTestTrap calculateTest
    have : (usedKeys C).mapM (trapRow C c) = (usedKeys C).mapM (fun k => weighted C k c) := by
      apply mapM_congr'
      intro k hk
      have hv : k ∈ varlist true := by rw [← hh]; exact (List.mem_filter.mp hk).1
      simp [trapRow, (mem_varlist_hybrid hv).1]
    rw [this]
  · rfl

theorem polTest_sc (hl : 0 < lam) (hC : ∀ k c, C.w k c = fin (w k)) (ht : C.hybrid = false → C.trap = false) (c : Nat) :
    polTest (scaled C lam w) c = polTest C c := by
  by_cases hh : C.hybrid = true
  · rw [polTest_hybrid C hh, polTest_hybrid (scaled C lam w) hh, calculateTest_sc hl hC]
  · have h1 := ht (by simpa using hh)
    have h2 : (scaled C lam w).trap = false := h1
    unfold polTest
    simp only [h1, h2, Bool.false_eq_true, if_false]
    exact calculateTest_sc hl hC c

theorem testFor_sc (hl : 0 < lam) (hC : ∀ k c, C.w k c = fin (w k)) (ht : C.hybrid = false → C.trap = false) (c : Nat) :
    testFor (scaled C lam w) c = testFor C c := by
  unfold testFor
  rw [polTest_sc hl hC ht]
  rfl

/-- C24: multiplying every weight by the same positive constant changes nothing: same scores, same categories, same
errors — for every input (finite or not, any shapes), subset of variables, band, method and flags, except the linear
method with trapezoids. -/
theorem C24_weight_ratio (A : SummerArgs XR) (I : Inputs XR) (w : Key → ℝ) (hw : ∀ k, A.weights k = fin (w k))
    (lam : ℝ) (hl : 0 < lam) (ht : methodOf A.method = some false → A.useTrap = false) :
    csuFhcSummer { A with weights := fun k => fin (lam * w k) } I = csuFhcSummer A I := by
  have h : summerRows { A with weights := fun k => fin (lam * w k) } I = summerRows A I := by
    unfold summerRows
    cases hd : I.dz with
    | none => rfl
    | some dz =>
      simp only [bind, Except.bind]
      generalize (if I.T.isNone = true then false else A.useTemp) = u
      cases hs : (getMbfSets .summer u A.tempFactor A.band : Except PyErr (Sets XR)) with
      | error e => rfl
      | ok sets =>
        cases hm : methodOf A.method with
        | none => rfl
        | some hyb =>
          simp only
          have : ∀ l, getTestList (mkCfg I dz u (fun k _ => fin (lam * w k)) sets hyb A.useTrap) l =
              getTestList (mkCfg I dz u (fun k _ => A.weights k) sets hyb A.useTrap) l := by
            intro l
            apply mapM_congr'
            intro c _
            exact testFor_sc (C := mkCfg I dz u (fun k _ => A.weights k) sets hyb A.useTrap) hl (fun k _ => hw k)
              (fun e => ht (by rw [hm]; exact congrArg some e)) c
          rw [this]
  unfold csuFhcSummer
  rw [h]

/-- the default weights are finite, so C24 applies to the default call: doubling them -/
example (I : Inputs XR) : csuFhcSummer { ({} : SummerArgs XR) with weights := fun k => fin (2 * defaultW k) } I =
    csuFhcSummer {} I :=
  C24_weight_ratio {} I defaultW defaultW_eq 2 (by norm_num) (by intro _; rfl)

end Csu.Fhc
