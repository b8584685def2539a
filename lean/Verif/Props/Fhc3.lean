import Verif.Props.Fhc2
/-!
# C23, C24: prototypes and weight ratios
-/
namespace Csu.Fhc
open Csu PyFloat Tables XR FhcSpec

/-! ## C23 -/

theorem wmean_one (ks : List Key) (w μ : Key → ℝ) (hs : (ks.map w).sum ≠ 0) (h1 : ∀ k ∈ ks, μ k = 1) :
    wmean ks w μ = 1 := by
  unfold wmean
  have : (ks.map (fun k => w k * μ k)) = ks.map w := List.map_congr_left (by intro k hk; rw [h1 k hk, mul_one])
  rw [this, div_self hs]

theorem sum_lt {ι : Type} (ks : List ι) (f g : ι → ℝ) (hle : ∀ k ∈ ks, f k ≤ g k) (hlt : ∃ k ∈ ks, f k < g k) :
    (ks.map f).sum < (ks.map g).sum := by
  have := sum_pos_of ks (fun k => g k - f k) (fun k hk => by linarith [hle k hk])
    (by obtain ⟨k, hk, h⟩ := hlt; exact ⟨k, hk, by linarith⟩)
  have e : (ks.map (fun k => g k - f k)).sum = (ks.map g).sum - (ks.map f).sum := by
    clear hle hlt this
    induction ks with
    | nil => simp
    | cons a ks ih => simp [ih]; ring
  linarith

theorem wmean_lt_one (ks : List Key) (w μ : Key → ℝ) (hw : ∀ k, 0 < w k) (h1 : ∀ k, μ k ≤ 1)
    (hex : ∃ k ∈ ks, μ k < 1) : wmean ks w μ < 1 := by
  obtain ⟨k, hk, hlt⟩ := hex
  have hs : 0 < (ks.map w).sum := sum_pos_of ks w (fun k _ => (hw k).le) ⟨k, hk, hw k⟩
  unfold wmean
  rw [div_lt_one hs]
  apply sum_lt
  · intro k _; have := hw k; have := h1 k; nlinarith
  · exact ⟨k, hk, by have := hw k; nlinarith⟩

/-- the variables that enter the score -/
def used (P : Key → Bool) (u : Bool) (k : Key) : Prop := P k = true ∧ (k = .T → u = true)

theorem score_eq_one (hybrid : Bool) (P : Key → Bool) (u : Bool) (w μ : Key → ℝ) (hw : ∀ k, 0 < w k)
    (hP : P .DZ = true) (hT : u = true → P .T = true) (h : ∀ k, used P u k → μ k = 1) : score hybrid P u w μ = 1 := by
  cases hybrid with
  | true =>
    simp only [score, if_true, hybridScore]
    have h1 : (if pol.filter P = [] then 1 else wmean (pol.filter P) w μ) = 1 := by
      split_ifs with hp
      · rfl
      · obtain ⟨k, hk⟩ := List.exists_mem_of_ne_nil _ hp
        apply wmean_one
        · exact (sum_pos_of _ _ (fun k _ => (hw k).le) ⟨k, hk, hw k⟩).ne'
        · intro k hk
          have := List.mem_filter.mp hk
          refine h k ⟨this.2, ?_⟩
          rintro rfl
          simp [pol] at this
    have h2 : (if u = true then μ .T else 1) = 1 := by
      split_ifs with hu
      · exact h _ ⟨hT hu, fun _ => hu⟩
      · rfl
    rw [h1, h2, h .DZ ⟨hP, by simp⟩]; norm_num
  | false =>
    simp only [score, Bool.false_eq_true, if_false, linearScore]
    apply wmean_one
    · apply (sum_pos_of _ _ (fun k _ => (hw k).le) ⟨.DZ, ?_, hw _⟩).ne'
      exact List.mem_filter.mpr ⟨mem_allKeys _, by simp [hP]⟩
    · intro k hk
      have := (List.mem_filter.mp hk).2
      simp only [Bool.and_eq_true, Bool.or_eq_true, bne_iff_ne, ne_eq] at this
      exact h k ⟨this.1, fun e => this.2.resolve_left (by simp [e])⟩

theorem score_lt_one (hybrid : Bool) (P : Key → Bool) (u : Bool) (w μ : Key → ℝ) (hw : ∀ k, 0 < w k)
    (hP : P .DZ = true) (hpos : ∀ k, 0 < μ k) (h1 : ∀ k, μ k ≤ 1) (hex : ∃ k, used P u k ∧ μ k < 1) :
    score hybrid P u w μ < 1 := by
  obtain ⟨k, ⟨hk1, hk2⟩, hlt⟩ := hex
  cases hybrid with
  | true =>
    simp only [score, if_true, hybridScore]
    have a1 : (if pol.filter P = [] then 1 else wmean (pol.filter P) w μ) ≤ 1 := by
      split_ifs with hp
      · exact le_rfl
      · obtain ⟨k, hk⟩ := List.exists_mem_of_ne_nil _ hp
        exact (wmean_unit _ _ _ (fun k => (hw k).le)
          (sum_pos_of _ _ (fun k _ => (hw k).le) ⟨k, hk, hw k⟩) (fun k => (hpos k).le) h1).2
    have a0 : 0 ≤ (if pol.filter P = [] then 1 else wmean (pol.filter P) w μ) := by
      split_ifs with hp
      · norm_num
      · obtain ⟨k, hk⟩ := List.exists_mem_of_ne_nil _ hp
        exact (wmean_unit _ _ _ (fun k => (hw k).le)
          (sum_pos_of _ _ (fun k _ => (hw k).le) ⟨k, hk, hw k⟩) (fun k => (hpos k).le) h1).1
    have b1 : (if u = true then μ .T else 1) ≤ 1 := by split_ifs; exacts [h1 _, le_rfl]
    have b0 : 0 < (if u = true then μ .T else 1) := by split_ifs; exacts [hpos _, one_pos]
    have c0 := hpos .DZ
    have c1 := h1 .DZ
    by_cases hpol : k ∈ pol
    · have hm : k ∈ pol.filter P := List.mem_filter.mpr ⟨hpol, hk1⟩
      have hne : pol.filter P ≠ [] := List.ne_nil_of_mem hm
      have a2 : (if pol.filter P = [] then 1 else wmean (pol.filter P) w μ) < 1 := by
        rw [if_neg hne]; exact wmean_lt_one _ _ _ hw h1 ⟨k, hm, hlt⟩
      generalize (if pol.filter P = [] then 1 else wmean (pol.filter P) w μ) = a at *
      generalize (if u = true then μ .T else 1) = b at *
      have : a * b < 1 := by nlinarith
      nlinarith [mul_nonneg a0 b0.le]
    · have hk : k = .T ∨ k = .DZ := by cases k <;> simp [pol] at hpol ⊢
      rcases hk with rfl | rfl
      · have b2 : (if u = true then μ .T else 1) < 1 := by rw [if_pos (hk2 rfl)]; exact hlt
        generalize (if pol.filter P = [] then 1 else wmean (pol.filter P) w μ) = a at *
        generalize (if u = true then μ .T else 1) = b at *
        have : a * b < 1 := by nlinarith
        nlinarith [mul_nonneg a0 b0.le]
      · generalize (if pol.filter P = [] then 1 else wmean (pol.filter P) w μ) = a at *
        generalize (if u = true then μ .T else 1) = b at *
        have : a * b ≤ 1 := by nlinarith
        nlinarith [mul_nonneg a0 b0.le]
  | false =>
    simp only [score, Bool.false_eq_true, if_false, linearScore]
    apply wmean_lt_one _ _ _ hw h1
    refine ⟨k, List.mem_filter.mpr ⟨mem_allKeys k, ?_⟩, hlt⟩
    simp only [hk1, Bool.true_and, Bool.or_eq_true, bne_iff_ne, ne_eq]
    by_cases e : k = .T
    · right; exact hk2 e
    · left; exact e

/-- species `c` and `c'` have different centres in some variable that enters the score -/
def Separated (band : String) (P : Key → Bool) (u : Bool) (c c' : Nat) : Prop :=
  ∃ k, used P u k ∧ (bell band .summer k c).m ≠ (bell band .summer k c').m

/-- centre of species `c` in variable `k` (temperature centres are divided by `temp_factor`) -/
noncomputable def centre (band : String) (f : ℝ) (c : Nat) (k : Key) : ℝ :=
  if k = .T then (bell band .summer k c).m / f else (bell band .summer k c).m

theorem bellT_m (band : String) (f : ℝ) (k : Key) (c : Nat) : (bellT band .summer f k c).m = centre band f c k := by
  unfold bellT centre; split_ifs <;> rfl

theorem bellT_good {band : String} (hb : band ∈ bands) {f : ℝ} (hf : 0 < f) (k : Key) (c : Nat) (hc : c < 10) :
    (bellT band .summer f k c).a ≠ 0 ∧ 0 < (bellT band .summer f k c).b := by
  obtain ⟨rows, h1, h2, h3⟩ := goodAt_summer hb (fun _ => true) c hc k rfl
  have e : bell band .summer k c = bellOf rows[c] := by simp [bell, h1, h2]
  unfold bellT
  split_ifs
  · rw [e]; exact (xrow_of_good h3 hf).2
  · rw [e]; have := (xrow_of_good h3 one_pos).2; rwa [scale_one] at this

/-- Prototype gates are classified as their own species, whenever the supplied variables separate the species. -/
theorem prototype (A : SummerArgs XR) (I : Inputs XR) (P : Key → Bool) (hybrid : Bool) (w : Key → ℝ) (f : ℝ)
    (cs : List Nat) (hA : GoodCall A P hybrid) (hn : A.nTypes = 10) (hret : A.returnScores = false) (hf : 0 < f)
    (hfe : A.tempFactor = fin f) (hw : ∀ k, A.weights k = fin (w k)) (hpos : ∀ k, 0 < w k)
    (htrap : hybrid = false → A.useTrap = false) (hcs : ∀ c ∈ cs, c < 10)
    (hsep : ∀ c ∈ cs, ∀ c', c' < 10 → c' ≠ c → Separated A.band P (P .T && A.useTemp) c c')
    (h : IsGates I P (cs.map (fun c k => fin (centre A.band f c k)))) :
    ∃ shape, csuFhcSummer A I = .ok (some (.hid shape (cs.map (· + 1)))) := by
  have hgw : GoodWeights hybrid P A.useTemp w :=
    ⟨fun k => (hpos k).le, fun _ ⟨k, a, b⟩ => ⟨k, a, b, hpos k⟩, fun _ => ⟨.DZ, hA.dz, by simp, hpos _⟩⟩
  obtain ⟨shape, cats, h1, h2, h3⟩ := C21_first_best_finite A I P (cs.map (fun c => centre A.band f c)) hybrid w f hA hn
    hret hf hfe hw hgw htrap (by simpa [List.map_map, Function.comp_def] using h)
  refine ⟨shape, ?_⟩
  rw [h1]
  congr 3
  apply List.ext_getElem
  · simpa using h2
  · intro i hi hi'
    simp only [List.length_map] at hi' h2 h3
    have hb := h3 i hi'
    simp only [List.getElem_map] at hb ⊢
    rw [List.getD, List.getElem?_eq_getElem hi, Option.getD_some] at hb
    have hc := hcs cs[i] (List.getElem_mem _)
    have hs := hsep cs[i] (List.getElem_mem _)
    generalize hcc : cs[i] = c at *
    have hT : (P .T && A.useTemp) = true → P .T = true := by simp; tauto
    have hone : score hybrid P (P .T && A.useTemp) w
        (fun k => (bellT A.band .summer f k c).mu (centre A.band f c k)) = 1 := by
      apply score_eq_one _ _ _ _ _ hpos hA.dz hT
      intro k _
      rw [← bellT_m]; exact mu_centre _ (bellT_good hA.band hf k c hc).2
    have hlt : ∀ c', c' < 10 → c' ≠ c → score hybrid P (P .T && A.useTemp) w
        (fun k => (bellT A.band .summer f k c').mu (centre A.band f c k)) < 1 := by
      intro c' hc' hne
      apply score_lt_one _ _ _ _ _ hpos hA.dz (fun k => mu_pos _ _) (fun k => mu_le_one _ _)
      obtain ⟨k, hu, hm⟩ := hs c' hc' hne
      refine ⟨k, hu, mu_lt_one _ (bellT_good hA.band hf k c' hc').1 ?_⟩
      rw [bellT_m]
      unfold centre
      split_ifs
      · intro e; apply hm; field_simp at e; exact e
      · exact hm
    refine FirstBest.unique hb ⟨by omega, by simp; omega, ?_, ?_⟩
    · intro j hj
      simp only [List.length_map, List.length_range] at hj
      simp only [Nat.add_sub_cancel, List.getD, List.getElem?_map, List.getElem?_range hj, List.getElem?_range hc,
        Option.map_some, Option.getD_some]
      rw [hone]
      by_cases e : j = c
      · subst e; exact hone.le
      · exact (hlt j hj e).le
    · intro j hj
      rw [Nat.add_sub_cancel] at hj
      have hj' : j < 10 := by omega
      simp only [Nat.add_sub_cancel, List.getD, List.getElem?_map, List.getElem?_range hj', List.getElem?_range hc,
        Option.map_some, Option.getD_some]
      rw [hone]
      exact hlt j hj' (by omega)

/-- comparison of the integer centres of the tables -/
def sepB (band : String) (P : Key → Bool) (c c' : Nat) : Bool :=
  keys.any (fun k => P k && match csv band .summer k with
    | none => false
    | some rows => match rows[c]?, rows[c']? with
      | some r, some r' => r.m.getD 0 != r'.m.getD 0
      | _, _ => false)

theorem separated_of {band : String} {P : Key → Bool} {u : Bool} (hu : P .T = true → u = true) {c c' : Nat}
    (h : sepB band P c c' = true) : Separated band P u c c' := by
  unfold sepB at h
  obtain ⟨k, _, hk⟩ := List.any_eq_true.mp h
  rw [Bool.and_eq_true] at hk
  refine ⟨k, ⟨hk.1, fun e => hu (by rw [← e]; exact hk.1)⟩, ?_⟩
  have hk2 := hk.2
  split at hk2
  · cases hk2
  · rename_i rows hr
    split at hk2
    · rename_i r r' h1 h2
      simp only [bell, hr, Option.getD_some, List.getD, h1, h2, bellOf]
      intro e
      have : ((r.m.getD 0 : ℤ) : ℝ) = ((r'.m.getD 0 : ℤ) : ℝ) := by
        field_simp at e; exact e
      have : r.m.getD 0 = r'.m.getD 0 := by exact_mod_cast this
      simp [this] at hk2
    · cases hk2

theorem sep_all (band : String) (hb : band ∈ bands) (c c' : Nat) (hc : c < 10) (hc' : c' < 10) (hne : c' ≠ c) :
    sepB band (fun _ => true) c c' = true := by
  have : bands.all (fun b => (List.range 10).all (fun c => (List.range 10).all (fun c' =>
    c' == c || sepB b (fun _ => true) c c'))) = true := by decide +kernel
  have h1 := List.all_eq_true.mp (List.all_eq_true.mp (List.all_eq_true.mp this band hb) c (List.mem_range.mpr hc)) c'
    (List.mem_range.mpr hc')
  simpa [hne] using h1

theorem sep_drop (band : String) (hb : band ∈ bands) (v : Key) (c c' : Nat) (hc : c < 10) (hc' : c' < 10) (hne : c' ≠ c) :
    sepB band (fun k => k != v) c c' = true := by
  have : bands.all (fun b => keys.all (fun v => (List.range 10).all (fun c => (List.range 10).all (fun c' =>
    c' == c || sepB b (fun k => k != v) c c')))) = true := by decide +kernel
  have h1 := List.all_eq_true.mp (List.all_eq_true.mp (List.all_eq_true.mp (List.all_eq_true.mp this band hb) v
    (mem_keys v)) c (List.mem_range.mpr hc)) c' (List.mem_range.mpr hc')
  simpa [hne] using h1

/-- C23: with all variables supplied, gates that sit at the centres of species `cs` are classified as `cs` (categories
count from 1), for both methods, all bands, default arguments. -/
theorem C23_prototypes (band : String) (hb : band ∈ bands) (method : String) (hybrid : Bool)
    (hm : methodOf method = some hybrid) (cs : List Nat) (hcs : ∀ c ∈ cs, c < 10) :
    ∃ shape, csuFhcSummer ({ band := band, method := method } : SummerArgs XR)
      (inputsOf (fun _ => true) (cs.map (fun c k => fin (bell band .summer k c).m))) =
        .ok (some (.hid shape (cs.map (· + 1)))) := by
  apply prototype (P := fun _ => true) (hybrid := hybrid) (w := defaultW) (f := 1)
  · exact ⟨hb, hm, rfl, by simp [pol], by simp⟩
  · rfl
  · rfl
  · exact one_pos
  · show (1 : XR) = _; simp
  · exact defaultW_eq
  · exact defaultW_pos
  · simp
  · exact hcs
  · intro c hc c' hc' hne
    exact separated_of (by simp) (sep_all band hb c c' (hcs c hc) hc' hne)
  · have e : (fun c k => fin (bell band .summer k c).m) = fun c k => fin (centre band 1 c k) := by
      funext c k; simp [centre]
    rw [e]
    exact isGates_inputsOf _ _

/-- C23, strengthened: any positive weights, any positive `temp_factor` (which moves the temperature centres), and any
one variable other than reflectivity left out. -/
theorem C23_prototypes_general (A : SummerArgs XR) (v : Key) (hv : v ≠ .DZ) (hybrid : Bool) (hb : A.band ∈ bands)
    (hm : methodOf A.method = some hybrid) (w : Key → ℝ) (hw : ∀ k, A.weights k = fin (w k)) (hpos : ∀ k, 0 < w k)
    (f : ℝ) (hf : 0 < f) (hfe : A.tempFactor = fin f) (hn : A.nTypes = 10) (hret : A.returnScores = false)
    (htemp : A.useTemp = true) (htrap : hybrid = false → A.useTrap = false) (cs : List Nat) (hcs : ∀ c ∈ cs, c < 10) :
    ∃ shape, csuFhcSummer A (inputsOf (fun k => k != v) (cs.map (fun c k => fin (centre A.band f c k)))) =
      .ok (some (.hid shape (cs.map (· + 1)))) := by
  apply prototype (P := fun k => k != v) (hybrid := hybrid) (w := w) (f := f) <;> try assumption
  · refine ⟨hb, hm, ?_, ?_, fun _ _ => Or.inl htemp⟩
    · simpa using hv.symm
    · intro _; cases v <;> decide
  · intro c hc c' hc' hne
    exact separated_of (by intro h; simp only [h, htemp, Bool.and_self]) (sep_drop A.band hb v c c' (hcs c hc) hc' hne)
  · exact isGates_inputsOf _ _

example : ∃ shape, csuFhcSummer ({ band := "C", method := "linear" } : SummerArgs XR)
    (inputsOf (fun _ => true) ([8, 0, 5].map (fun c k => fin (bell "C" .summer k c).m))) =
      .ok (some (.hid shape [9, 1, 6])) :=
  C23_prototypes "C" (by simp [bands]) "linear" false (by decide) [8, 0, 5] (by simp)

end Csu.Fhc
