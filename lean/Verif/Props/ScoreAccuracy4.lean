import Verif.Props.ScoreAccuracy3
/-!
# Property C167: the warm and cold winter classes in floating point

The `warm` and `cold` classes that `run_winter` returns are, up to 0.008, the best of the exact scores.
-/
namespace Csu.Fhc
open Tables PyFloat IeeeFloat FhcSpec
variable {α : Type} [IeeeFloatPow α]

/-- the best of numbers known up to 0.004 is the best up to 0.008 -/
theorem argmax_close {n : Nat} (hn : 0 < n) {l : List α} (hl : l.length = n) {ex : Nat → ℝ}
    (h : ∀ j < n, ∃ v : ℝ, IeeeFloat.val (l.getD j PyFloat.nan) = .fin v ∧ |v - ex j| ≤ 1 / 250) :
    ∃ k < n, argmaxPlus1 l = k + 1 ∧ ∀ j < n, ex j ≤ ex k + 1 / 125 := by
  have h' : ∀ j : Nat, ∃ v : ℝ, j < n → IeeeFloat.val (l.getD j PyFloat.nan) = .fin v ∧ |v - ex j| ≤ 1 / 250 := by
    intro j
    by_cases hj : j < n
    · obtain ⟨v, hv⟩ := h j hj; exact ⟨v, fun _ => hv⟩
    · exact ⟨0, fun h => absurd h hj⟩
  choose r hr using h'
  have e : l.map IeeeFloat.val = ((List.range n).map r).map XR.fin := by
    apply List.ext_getElem
    · simp [hl]
    · intro j h1 h2
      have hj : j < n := by simpa [hl] using h1
      have := (hr j hj).1
      rw [List.getD_eq_getElem?_getD, List.getElem?_eq_getElem (by omega), Option.getD_some] at this
      simpa using this
  rw [argmaxPlus1_val, e]
  obtain ⟨k1, k2, k3, -⟩ := argmaxPlus1_fin ((List.range n).map r) (by simp; omega)
  set k := argmaxPlus1 (((List.range n).map r).map XR.fin)
  rw [List.length_map, List.length_range] at k2
  have hk : k - 1 < n := by omega
  refine ⟨k - 1, hk, by omega, ?_⟩
  intro j hj
  have h0 := k3 j (by simpa using hj)
  simp only [List.getD_eq_getElem?_getD, List.getElem?_map, List.getElem?_range hj, List.getElem?_range hk, Option.map_some, Option.getD_some] at h0
  have h1 := (abs_le.mp (hr j hj).2).1
  have h2 := (abs_le.mp (hr (k - 1) hk).2).2
  linarith

/-- the exact score of winter species `c` at a gate, with the default weights and the C-band parameters that `run_winter` uses -/
noncomputable def winterScore (P : Key → Bool) (c : Nat) (g : Key → α) : ℝ :=
  exactScore false P true (fun k => winterW k c) (exactMember "C" .winter c g)

theorem winter_close {warm : Bool} {I : Inputs α} {shape : List Nat} {rows : List (List α)} {P : Key → Bool} {gs : List (Key → α)}
    (hr : csuFhcWinter (winterCallArgs warm) I = .ok (some (shape, rows))) (h : IsGates I P gs) (hP : P .DZ = true)
    (hpol : P .DR = true ∨ P .KD = true) (hR : P .RH = false) (hL : P .LD = false)
    {i : Nat} (hi : i < gs.length) (hx : ∀ k, P k = true → ∃ y : ℝ, IeeeFloat.val (gs[i] k) = .fin y ∧ |y| ≤ 2 ^ (20 : ℤ)) :
    ∃ k < (winterSpecies warm).length, argmaxPlus1 (column rows i) = k + 1 ∧ ∀ j < (winterSpecies warm).length,
      winterScore P ((winterSpecies warm).getD j 0) gs[i] ≤ winterScore P ((winterSpecies warm).getD k 0) gs[i] + 1 / 125 := by
  have hA : GoodWinter (winterCallArgs warm : WinterArgs α) P false := by
    refine ⟨by simp [winterCallArgs, bands], by show methodOf "linear" = _; decide, hP, fun _ => ?_, fun _ _ => rfl⟩
    rcases hpol with h | h
    · exact List.ne_nil_of_mem (List.mem_filter.mpr ⟨by simp [pol], h⟩)
    · exact List.ne_nil_of_mem (List.mem_filter.mpr ⟨by simp [pol], h⟩)
  have hf : IeeeFloat.val (winterCallArgs warm : WinterArgs α).tempFactor = .fin 1 := Ieee.vone
  obtain ⟨dz, _, h2⟩ := winter_gates hA (noZeroWidth_winterF hA.band ⟨1, hf, by norm_num, by norm_num⟩) h
  rw [hr] at h2
  simp only [Except.ok.injEq, Option.some.injEq, Prod.mk.injEq] at h2
  have hlen : rows.length = (winterSpecies warm).length := by
    rw [h2.2, List.length_map]; rfl
  refine argmax_close (by cases warm <;> simp [winterSpecies]) (l := column rows i) (by rw [column_length, hlen]) ?_ (ex := fun j => winterScore P ((winterSpecies warm).getD j 0) gs[i])
  intro j hj
  have hc : (winterSpecies warm)[j] ∈ winterTypes warm := List.getElem_mem hj
  have ej : (winterTypes warm)[j]? = some ((winterSpecies warm)[j]) := List.getElem?_eq_getElem hj
  have e : (column rows i).getD j PyFloat.nan = gScore (cfg P (winterCallArgs warm : WinterArgs α).useTemp (winterCallArgs warm : WinterArgs α).weights
      (setsOf .winter (effTemp P (winterCallArgs warm : WinterArgs α).useTemp) (winterCallArgs warm : WinterArgs α).tempFactor (winterCallArgs warm : WinterArgs α).band) false false)
      ((winterSpecies warm)[j]) gs[i] := by
    rw [h2.2]
    have et : winterTypes (winterCallArgs warm : WinterArgs α).warm = winterTypes warm := rfl
    simp only [column, List.map_map, List.getD_eq_getElem?_getD, List.getElem?_map, et, ej, Option.map_some, Option.getD_some, Function.comp_apply,
      List.getElem?_eq_getElem hi]
  rw [e, List.getD_eq_getElem?_getD, List.getElem?_eq_getElem hj, Option.getD_some]
  obtain ⟨w1, w2⟩ := exactWeights_winter (α := α) hP warm _ hc
  exact gScore_close hA.dz (fun _ => rfl) (fun k => (w1 k).1) (fun k => (w1 k).2.1) (fun k => (w1 k).2.2) (exactMember_unit _ _ _ _)
    (fun k hk hT => member_close (goodAt_winter hA.band P hR hL _ (winterTypes_lt _ _ hc)) hf hx k hk hT)
    (fun e hT => by simp [effTemp, hT]; rfl) w2

/-- **C167.** Whenever `run_winter` returns, at every gate whose reflectivity, temperature, differential reflectivity and specific differential
phase (those supplied) are finite and up to `2^20`, the returned `warm` class is 6 or 7 and the returned `cold` class 1 to 4, and no other class
of the group has an exact score larger by more than 0.008. -/
theorem C167_classes (env : Env) (A : MeltArgs α) (F : Fields α) (out : WinterOut α) (h : runWinter env A F = .ok out)
    (P : Key → Bool) (gs : List (Key → α)) (hg : IsGates (winterInputs F) P gs) (hpol : P .DR = true ∨ P .KD = true)
    (i : Nat) (hi : i < gs.length) (hx : ∀ k, P k = true → ∃ y : ℝ, IeeeFloat.val (gs[i] k) = .fin y ∧ |y| ≤ 2 ^ (20 : ℤ)) :
    ∃ w c : ℕ, w < 2 ∧ c < 4 ∧ out.warm[i]? = some (6 + (w : Int)) ∧ out.cold[i]? = some (1 + (c : Int)) ∧
      (∀ j < 2, winterScore P (4 + j) gs[i] ≤ winterScore P (4 + w) gs[i] + 1 / 125) ∧
      (∀ j < 4, winterScore P j gs[i] ≤ winterScore P c gs[i] + 1 / 125) := by
  obtain ⟨M, dz, h1, h2, h3, h4, -, -, -, -, k2, k3⟩ := runWinter_inv h
  have rowsOk : ∀ (b : Bool) (rows : List (List α)), winterRows env b F = .ok rows →
      ∃ shape, csuFhcWinter (winterCallArgs b) (winterInputs F) = .ok (some (shape, rows)) := by
    intro b rows hr
    simp only [winterRows, bind, Except.bind] at hr
    split at hr
    · cases hr
    · rename_i o ho
      cases o with
      | none => cases hr
      | some p =>
        obtain ⟨sh, rows'⟩ := p
        simp only [Except.ok.injEq] at hr
        subst hr
        exact ⟨sh, winterV_ok ho⟩
  obtain ⟨s1, r1⟩ := rowsOk true _ h3
  obtain ⟨s2, r2⟩ := rowsOk false _ h4
  have g1 := hg .DZ
  have g2 := hg .RH
  have g3 := hg .LD
  simp only [winterInputs, Inputs.get, h2, Option.map_some, Option.map_none] at g1 g2 g3
  have hP : P .DZ = true := by by_contra hne; simp [hne] at g1
  have hR : P .RH = false := by by_contra hne; simp [hne] at g2
  have hL : P .LD = false := by by_contra hne; simp [hne] at g3
  have hlen : dz.data.length = gs.length := by
    rw [if_pos hP, Option.some.injEq] at g1
    rw [g1]; simp
  obtain ⟨w, w1, w2, w3⟩ := winter_close r1 hg hP hpol hR hL hi hx
  obtain ⟨c, c1, c2, c3⟩ := winter_close r2 hg hP hpol hR hL hi hx
  have w1 : w < 2 := w1
  have c1 : c < 4 := c1
  have sw : ∀ j < 2, (winterSpecies true).getD j 0 = 4 + j := by
    intro j hj
    rcases (show j = 0 ∨ j = 1 by omega) with rfl | rfl <;> rfl
  have sc : ∀ j < 4, (winterSpecies false).getD j 0 = j := by
    intro j hj
    rcases (show j = 0 ∨ j = 1 ∨ j = 2 ∨ j = 3 by omega) with rfl | rfl | rfl | rfl <;> rfl
  have hwarm := (C104_returned_classes env A F out h)
  refine ⟨w, c, w1, c1, ?_, ?_, ?_, ?_⟩
  · obtain ⟨l1, l2, l3, l4⟩ := hwarm
    have hi' : i < out.hca.length := by
      have : out.cold.length = dz.data.length := by rw [k3]; simp [classify]
      omega
    obtain ⟨m, w', c', -, e2, -, -, e3, -⟩ := l4 i _ (List.getElem?_eq_getElem hi')
    rw [e2, e3, w2]
    push_cast
    congr 1; ring
  · rw [k3, List.getElem?_map, classify_get? _ _ _ (by omega), c2]
    simp [add_comm]
  · intro j hj
    have := w3 j hj
    rwa [sw j hj, sw w w1] at this
  · intro j hj
    have := c3 j hj
    rwa [sc j hj, sc c c1] at this

/-- The stored parameters are those of the files: each entry `n/1000` of a shipped file is stored with a relative error of at most `2^-20`
(and `2^-100` more), so that the parameters of `exactMember` are the published ones up to that. -/
theorem C164_stored (band : String) (s : Season) (k : Key) (rows : List RawRow) (h : csv band s k = some rows) (r : RawRow) (hr : r ∈ rows)
    (n : ℤ) (hn : r.m = some n ∨ r.a = some n ∨ r.b = some n) :
    |toR (rawVal (some n) : α) - (n : ℝ) / 1000| ≤ 2 ^ (-20 : ℤ) * |(n : ℝ) / 1000| + 2 ^ (-100 : ℤ) := by
  have hs := table_small band s k rows h r hr n hn
  have hq : (((n : ℚ) / 1000 : ℚ) : ℝ) = (n : ℝ) / 1000 := by push_cast; rfl
  have hv : IeeeFloat.val (rawVal (some n) : α) = rnd α (.fin ((n : ℝ) / 1000)) := by
    show IeeeFloat.val (PyFloat.lit ((n : ℚ) / 1000) : α) = _
    rw [Ieee.vlit, hq]
  have hn' : |(n : ℝ)| ≤ 1000000 := by exact_mod_cast hs
  obtain ⟨x, hx, hx1⟩ := Ieee.rnd_near (α := α) (x := (n : ℝ) / 1000) (by
    rw [abs_div, abs_of_pos (by norm_num : (0 : ℝ) < 1000)]
    calc |(n : ℝ)| / 1000 ≤ 1000000 / 1000 := by gcongr
      _ ≤ _ := by norm_num)
  rw [toR_eq (hv.trans hx)]
  exact hx1

/-- a volume of one gate -/
example : ∃ out, runWinter ⟨true, true⟩ ({ scanType := "grid" } : MeltArgs XR) (fieldsOf [1] none [⟨25, 3, 0, 0.75, -5, 20, 6, false⟩]) = .ok out ∧
    ∃ w c : ℕ, w < 2 ∧ c < 4 ∧ out.warm[0]? = some (6 + (w : Int)) ∧ out.cold[0]? = some (1 + (c : Int)) := by
  obtain ⟨out, m, h1, -⟩ := C33_finite_volume ⟨true, true⟩ rfl ({ scanType := "grid" } : MeltArgs XR) 0.5 5 4
    (by simp) (by simp) (by show some (4.0 : XR) = _; rw [XR.fsci]; norm_num) (by decide) [1] none [⟨25, 3, 0, 0.75, -5, 20, 6, false⟩] ⟨by simp, by simp⟩ (by simp)
  refine ⟨out, h1, ?_⟩
  have hg : IsGates (winterInputs (fieldsOf [1] none [⟨25, 3, 0, 0.75, -5, 20, 6, false⟩])) PWin [wetAt] := by
    intro k
    cases k <;> simp [winterInputs, fieldsOf, Inputs.get, PWin, field, wetAt]
  obtain ⟨w, c, w1, c1, e1, e2, -⟩ := C167_classes _ _ _ out h1 PWin [wetAt] hg (Or.inl rfl) 0 (by simp) (by
    intro k hk
    cases k <;> first | exact ⟨_, rfl, by norm_num⟩ | simp [PWin] at hk)
  exact ⟨w, c, w1, c1, e1, e2⟩

end Csu.Fhc
