import Verif.Lemmas.KdpOffset
import Verif.Props.KdpTotal
import Verif.QFloat
/-!
# C124, C125: KDP in other units, and with another system phase

The Cython kernel (the one the package builds by default).
-/
namespace Csu.Kdp
open Csu PyFloat KdpSpec

/-! ## C124 -/

/-- **C124.** `R'` being the ray `R` in other units (`Changed`: phases and bad value `x ↦ lam x + c`, ranges `r ↦ mu r + d`, thresholds
`t ↦ lam t`, where `lam > 0`, `mu ≠ 0`), and the filter keeping a constant phase unless `c = 0` (`Taps`): both calls raise the same exception,
or both return, and gate by gate the filtered phase is in the new units, the standard deviation is multiplied by `lam` (or is the 100 of "too
few good phases" in both) and KDP is multiplied by `lam / mu` (or is the bad value in both). -/
theorem C124_change_of_units (K : Units) (R R' : Ray XR) (h : Changed K R R') (hs : 1 ≤ R.stdGate) (w : Nat → ℝ) (g : ℝ)
    (ht : Taps K R w g) (chk : Bool) :
    (∀ e, calcKdpRayFir cython chk R = .error e → calcKdpRayFir cython chk R' = .error e) ∧
    ∀ out, calcKdpRayFir cython chk R = .ok out → ∃ out', calcKdpRayFir cython chk R' = .ok out' ∧ ∀ i : Nat, i < R.n →
      (∃ x : ℝ, out.dp[i]? = some (.fin x) ∧ out'.dp[i]? = some (.fin (K.lam * x + K.c))) ∧
      ((out.sd[i]? = some (.fin 100) ∧ out'.sd[i]? = some (.fin 100)) ∨
        ∃ s : ℝ, out.sd[i]? = some (.fin s) ∧ out'.sd[i]? = some (.fin (K.lam * s))) ∧
      ((out.kd[i]? = some R.bad ∧ out'.kd[i]? = some R'.bad) ∨
        ∃ k : ℝ, out.kd[i]? = some (.fin k) ∧ out'.kd[i]? = some (.fin (K.lam / K.mu * k))) := by
  have hrel := relCalc h hs ht chk
  constructor
  · intro e he
    rw [he] at hrel
    generalize calcKdpRayFir cython chk R' = Y at hrel
    cases hrel with
    | err => rfl
  · intro out ho
    obtain ⟨yz, r⟩ := calc_run ho
    rw [ho] at hrel
    generalize calcKdpRayFir cython chk R' = Y at hrel
    cases hrel with
    | @ok _ out' hr =>
      obtain ⟨h1, h2, h3⟩ := hr
      refine ⟨out', rfl, fun i hi => ?_⟩
      have l1 := h1.length_eq
      have l2 := h2.length_eq
      have l3 := h3.length_eq
      have a1 := r.kdLen
      have a2 := r.dpLen
      have a3 := r.sdLen
      have k1 := h1.get (i := i) (by omega) (by omega)
      have k2 := h2.get (i := i) (by omega) (by omega)
      have k3 := h3.get (i := i) (by omega) (by omega)
      simp only [List.get_eq_getElem] at k1 k2 k3
      rw [List.getElem?_eq_getElem (by omega : i < out.kd.length), List.getElem?_eq_getElem (by omega : i < out.dp.length),
        List.getElem?_eq_getElem (by omega : i < out.sd.length), List.getElem?_eq_getElem (by omega : i < out'.kd.length),
        List.getElem?_eq_getElem (by omega : i < out'.dp.length), List.getElem?_eq_getElem (by omega : i < out'.sd.length)]
      refine ⟨?_, ?_, ?_⟩
      · obtain ⟨x, e1, e2⟩ := k2
        exact ⟨x, congrArg some e1, congrArg some e2⟩
      · rcases k3 with ⟨e1, e2⟩ | ⟨s, e1, e2⟩
        · exact .inl ⟨congrArg some e1, congrArg some e2⟩
        · exact .inr ⟨s, congrArg some e1, congrArg some e2⟩
      · rcases k1 with ⟨e1, e2⟩ | ⟨k, e1, e2⟩
        · exact .inl ⟨congrArg some e1, congrArg some e2⟩
        · exact .inr ⟨k, congrArg some e1, congrArg some e2⟩

/-- **C124**, ranges only: measuring range in another unit (`mu ≠ 0`, e.g. 1000 for metres instead of kilometres) and from another origin leaves the
filtered phase and the standard deviation as they are and divides KDP by `mu`. -/
theorem C124_range_units (R : Ray XR) (mu d β : ℝ) (hmu : mu ≠ 0) (hb : R.bad = .fin β) (hs : 1 ≤ R.stdGate) (w : Nat → ℝ) (g : ℝ)
    (hg : R.gain = .fin g) (hc : ∀ k : Nat, k ≤ 2 * (R.order / 2) → R.coef.mem ((k : Int) + 1) = .fin (w k)) (x r t : Int → ℝ)
    (hx : ∀ j : Int, 0 ≤ j → j < R.n → R.dp.mem j = .fin (x j)) (ht : ∀ j : Int, 0 ≤ j → j < R.n → R.thsd.mem j = .fin (t j))
    (hr : ∀ j : Int, 0 ≤ j → j < R.n → R.rng.mem j = .fin (r j) ∧ r j ≠ β ∧ mu * r j + d ≠ β) (chk : Bool) (out : RayOut XR)
    (ho : calcKdpRayFir cython chk R = .ok out) :
    ∃ out', calcKdpRayFir cython chk { R with rng := ⟨R.rng.len, fun j => .fin (mu * r j + d)⟩ } = .ok out' ∧
      out'.dp = out.dp ∧ ∀ i : Nat, i < R.n → out'.sd[i]? = out.sd[i]? ∧
      ((out.kd[i]? = some R.bad ∧ out'.kd[i]? = some R.bad) ∨
        ∃ k : ℝ, out.kd[i]? = some (.fin k) ∧ out'.kd[i]? = some (.fin (k / mu))) := by
  have hC : Changed ⟨1, 0, mu, d⟩ R { R with rng := ⟨R.rng.len, fun j => .fin (mu * r j + d)⟩ } := by
    refine ⟨one_pos, hmu, rfl, rfl, rfl, rfl, rfl, rfl, rfl, rfl, rfl, rfl, rfl, ⟨β, hb, ?_, ?_, ?_⟩, ?_, ?_, ?_⟩
    · simp [Units.phase, hb]
    · intro j _ _; simp [Units.phase]
    · intro j q j0 j1 hq
      have := hr j j0 j1
      rw [this.1] at hq
      have hq := XR.fin.inj hq
      subst hq
      simp [Units.phase, Units.range, this.2.1, this.2.2]
    · intro j j0 j1; exact ⟨x j, hx j j0 j1, by simp [Units.phase, hx j j0 j1]⟩
    · intro j j0 j1; exact ⟨r j, (hr j j0 j1).1, by simp [Units.range]⟩
    · intro j j0 j1; exact ⟨t j, ht j j0 j1, by simp [ht j j0 j1], by simp⟩
  obtain ⟨out', ho', hall⟩ := (C124_change_of_units _ _ _ hC hs w g ⟨hg, hc, .inl rfl⟩ chk).2 out ho
  obtain ⟨yz, rr⟩ := calc_run ho
  obtain ⟨yz', rr'⟩ := calc_run ho'
  refine ⟨out', ho', List.ext_getElem? fun i => ?_, fun i hi => ⟨?_, ?_⟩⟩
  · by_cases hi : i < R.n
    · obtain ⟨y, e1, e2⟩ := (hall i hi).1
      rw [e1, e2]; simp
    · have l1 := rr.dpLen
      have l2 : out'.dp.length = R.n := rr'.dpLen
      rw [List.getElem?_eq_none (by omega), List.getElem?_eq_none (by omega)]
  · rcases (hall i hi).2.1 with ⟨e1, e2⟩ | ⟨s, e1, e2⟩
    · rw [e1, e2]
    · rw [e1, e2]; simp
  · rcases (hall i hi).2.2 with ⟨e1, e2⟩ | ⟨k, e1, e2⟩
    · exact .inl ⟨e1, e2⟩
    · refine .inr ⟨k, e1, ?_⟩
      rw [e2]; simp only [Option.some.injEq, XR.fin.injEq]; ring

/-! ## C125 -/

/-- two results that differ by what a shift of `d` of the filtered phase amounts to: the same KDP and standard deviation, and at each gate no
filtered phase in both or phases that differ by `d` -/
def SameKdp (n : Nat) (β d : ℝ) (a b : RayOut XR) : Prop :=
  a.kd = b.kd ∧ a.sd = b.sd ∧ ∀ i : Nat, i < n → (a.dp[i]? = some (.fin β) ∧ b.dp[i]? = some (.fin β)) ∨
    ∃ y : ℝ, a.dp[i]? = some (.fin y) ∧ b.dp[i]? = some (.fin (y + d))

/-- **C125**, what holds.  For any phases `x` (`none` = missing), any pattern of gaps, and at most one pass of the filter or one that keeps a
constant phase (`m = 1`, `m ≠ 0` being the gain times the sum of the coefficients read): there is a finite set of offsets such that all other
offsets give the same KDP and the same standard deviation (or the same exception), filtered phases at the same gates, shifted with the offset. -/
theorem C125_phase_offset_partial (R : Ray XR) (β : ℝ) (hb : R.bad = .fin β) (hs : 1 ≤ R.stdGate) (r : Int → ℝ)
    (hr : ∀ j : Int, 0 ≤ j → j < R.n → R.rng.mem j = .fin (r j)) (w : Nat → ℝ) (g m : ℝ) (hg : R.gain = .fin g)
    (hc : ∀ k : Nat, k ≤ 2 * (R.order / 2) → R.coef.mem ((k : Int) + 1) = .fin (w k))
    (hm : m = g * ∑ k ∈ Finset.range (2 * (R.order / 2) + 1), w k) (hm0 : m ≠ 0) (hnf : R.nf ≤ 1 ∨ m = 1)
    (x : Int → Option ℝ) (chk : Bool) :
    ∃ E : Set ℝ, E.Finite ∧ ∀ t, t ∉ E → ∀ t', t' ∉ E →
      (∃ e, calcKdpRayFir cython chk (shifted R β x t) = .error e ∧ calcKdpRayFir cython chk (shifted R β x t') = .error e) ∨
      ∃ a b, calcKdpRayFir cython chk (shifted R β x t) = .ok a ∧ calcKdpRayFir cython chk (shifted R β x t') = .ok b ∧
        SameKdp R.n β ((if R.nf = 0 then 1 else m) * (t' - t)) a b := by
  have hκ : gainOf m R.nf = if R.nf = 0 then 1 else m := by cases R.nf <;> simp [gainOf]
  rcases ev_calc (x := x) hb hs hr ⟨hg, hc, hm⟩ hm0 hnf chk with ⟨e, he⟩ | ⟨V, hV, hk, hsd, hdp⟩
  · refine ⟨_, Filter.eventually_cofinite.mp he, fun t ht t' ht' => .inl ⟨e, ?_, ?_⟩⟩
    · simpa using ht
    · simpa using ht'
  · obtain ⟨kd, hk⟩ := hk
    obtain ⟨sd, hsd⟩ := hsd
    choose s hs' using hdp
    have hall : ∀ᶠ t in Filter.cofinite, ∀ i : Fin R.n, (V t).dp[i.val]? = some (sval β (gainOf m R.nf) (s i.val i.isLt) t) := by
      rw [Filter.eventually_all]
      exact fun i => hs' i.val i.isLt
    have hfin := ((hV.and hk).and hsd).and hall
    refine ⟨_, Filter.eventually_cofinite.mp hfin, fun t ht t' ht' => .inr ⟨V t, V t', ?_⟩⟩
    simp only [Set.mem_setOf_eq, not_not] at ht ht'
    obtain ⟨⟨⟨a1, a2⟩, a3⟩, a4⟩ := ht
    obtain ⟨⟨⟨b1, b2⟩, b3⟩, b4⟩ := ht'
    refine ⟨a1, b1, a2.trans b2.symm, a3.trans b3.symm, fun i hi => ?_⟩
    have e1 := a4 ⟨i, hi⟩
    have e2 := b4 ⟨i, hi⟩
    dsimp only at e1 e2
    rw [e1, e2, ← hκ]
    cases s i hi with
    | none => exact .inl ⟨rfl, rfl⟩
    | some y =>
      refine .inr ⟨y + gainOf m R.nf * t, rfl, ?_⟩
      simp only [sval, Option.some.injEq, XR.fin.injEq]
      ring

/-- the ray with `t` added to every phase that is not bad -/
def addPhase {α : Type} [PyFloat α] (R : Ray α) (t : α) : Ray α :=
  { R with dp := ⟨R.dp.len, fun j => if R.dp.mem j ==. R.bad then R.bad else R.dp.mem j + t⟩ }

/-- C125 in full: adding a constant to all good phases does not change KDP (here over the rationals). -/
def C125Full : Prop := ∀ (R : Ray QF) (t : QF) (a b : RayOut QF), calcKdpRayFir cython true R = .ok a →
  calcKdpRayFir cython true (addPhase R t) = .ok b → a.kd = b.kd

/-- phases 1, 2, ..., 9, thresholds 200, bad value -5 -/
def offRay (nf : Nat) (gain : QF) (f : Int → QF) : Ray QF :=
  { n := 9, dp := ⟨9, f⟩, dz := ⟨9, fun _ => 50⟩, rng := ⟨9, fun j => .q j⟩, thsd := ⟨9, fun _ => 200⟩, nf := nf, bad := .q (-5),
    order := 4, gain := gain, coef := ⟨6, fun _ => 1⟩, stdGate := 11, nadp0 := 0 }

theorem differ {R R' : Ray QF} (h1 : (calcKdpRayFir cython true R).isOk = true) (h2 : (calcKdpRayFir cython true R').isOk = true)
    (h : (calcKdpRayFir cython true R).toOption.map (·.kd) ≠ (calcKdpRayFir cython true R').toOption.map (·.kd)) :
    ∃ a b, calcKdpRayFir cython true R = .ok a ∧ calcKdpRayFir cython true R' = .ok b ∧ a.kd ≠ b.kd := by
  revert h1 h2 h
  cases calcKdpRayFir cython true R with
  | error e => intro h; cases h
  | ok a =>
    cases calcKdpRayFir cython true R' with
    | error e => intro _ h; cases h
    | ok b => intro _ _ h; exact ⟨a, b, rfl, rfl, fun hc => h (by simp [Except.toOption, hc])⟩

/-- The offset can make a good phase look bad: with phases 1, 2, ... and bad value -5 the offset -6 removes the first gate. -/
theorem C125_collision_full_false : ¬ C125Full := by
  intro h
  obtain ⟨a, b, ha, hb, hne⟩ := differ (R := offRay 0 1 fun j => .q (j + 1)) (R' := addPhase (offRay 0 1 fun j => .q (j + 1)) (.q (-6)))
    (by decide +kernel) (by decide +kernel) (by decide +kernel)
  exact hne (h _ _ a b ha hb)

/-- Without any such coincidence: two passes of a filter whose coefficients, as read, do not sum to 1.  The gates near the end of the ray keep the
phase of the first pass, so a constant phase gets a KDP, which depends on the constant (8 and 16 here, half of it kept by each pass). -/
theorem C125_two_passes_full_false : ¬ ∀ (R : Ray QF) (a b : RayOut QF), (∀ j, R.dp.mem j = 8) → R.nf = 2 →
    calcKdpRayFir cython true R = .ok a → calcKdpRayFir cython true (addPhase R 8) = .ok b → a.kd = b.kd := by
  intro h
  obtain ⟨a, b, ha, hb, hne⟩ := differ (R := offRay 2 (.q (1 / 10)) fun _ => 8) (R' := addPhase (offRay 2 (.q (1 / 10)) fun _ => 8) 8)
    (by decide +kernel) (by decide +kernel) (by decide +kernel)
  exact hne (h _ a b (fun _ => rfl) rfl ha hb)

/-- the same ray with one pass: all gates get the same phase and KDP is 0 with both constants -/
example : (calcKdpRayFir cython true (offRay 1 (.q (1 / 10)) fun _ => 8)).toOption.map (fun o => o.kd[4]?) = some (some 0) ∧
    (calcKdpRayFir cython true (addPhase (offRay 1 (.q (1 / 10)) fun _ => 8) 8)).toOption.map (fun o => o.kd[4]?) = some (some 0) ∧
    (calcKdpRayFir cython true (offRay 2 (.q (1 / 10)) fun _ => 8)).toOption.map (fun o => o.kd[3]?) = some (some (.q (-1))) := by
  refine ⟨?_, ?_, ?_⟩ <;> decide +kernel

/-! ## The hypotheses can be met -/

/-- nine gates with phases 1, 2, ..., gate 4 missing -/
noncomputable def unitRay (nf : Nat) : Ray XR :=
  { n := 9, dp := ⟨9, fun j => if j = 4 then .fin (-5) else .fin (j + 1)⟩, dz := ⟨9, fun _ => .fin 50⟩, rng := ⟨9, fun j => .fin j⟩,
    thsd := ⟨9, fun _ => .fin 200⟩, nf := nf, bad := .fin (-5), order := 4, gain := .fin (1 / 5), coef := ⟨6, fun _ => .fin 1⟩, stdGate := 11, nadp0 := 0 }

/-- ranges in metres instead of kilometres, phases doubled: a change of units in the sense of C124 -/
example : Changed ⟨2, 0, 1000, 0⟩ (unitRay 2) { unitRay 2 with
      dp := ⟨9, fun j => if j = 4 then .fin (-10) else .fin (2 * (j + 1))⟩, rng := ⟨9, fun j => .fin (1000 * j)⟩,
      thsd := ⟨9, fun _ => .fin 400⟩, bad := .fin (-10) } ∧ Taps ⟨2, 0, 1000, 0⟩ (unitRay 2) (fun _ => 1) (1 / 5) := by
  refine ⟨⟨by norm_num, by norm_num, rfl, rfl, rfl, rfl, rfl, rfl, rfl, rfl, rfl, rfl, rfl, ⟨-5, rfl, ?_, ?_, ?_⟩, ?_, ?_, ?_⟩, rfl, fun _ _ => rfl, .inl rfl⟩
  · show XR.fin (-10) = _; simp [Units.phase]; norm_num
  · intro j _ _; show (XR.fin 50 ==. _) = (XR.fin 50 ==. _); simp [Units.phase]; norm_num
  · intro j r j0 j1 h
    have : (j : ℝ) = r := XR.fin.inj h
    have h0 : (0 : ℝ) ≤ j := by exact_mod_cast j0
    simp only [Units.phase, Units.range]
    constructor
    · intro hc; linarith
    · intro hc; linarith
  · intro j _ _
    by_cases hj : j = 4
    · exact ⟨-5, by simp [unitRay, hj], by simp [hj, Units.phase]; norm_num⟩
    · exact ⟨j + 1, by simp [unitRay, hj], by simp [hj, Units.phase]⟩
  · intro j _ _; exact ⟨j, rfl, by simp [Units.range]⟩
  · intro j _ _; exact ⟨200, rfl, by norm_num, by norm_num⟩

/-- an offset of all phases but the missing one: the hypotheses of C125 with any number of passes (the coefficients read sum to 1) -/
example (nf : Nat) : ∃ E : Set ℝ, E.Finite ∧ ∀ t, t ∉ E → ∀ t', t' ∉ E →
      (∃ e, calcKdpRayFir cython true (shifted (unitRay nf) (-5) (fun j => if j = 4 then none else some (j + 1)) t) = .error e ∧
        calcKdpRayFir cython true (shifted (unitRay nf) (-5) (fun j => if j = 4 then none else some (j + 1)) t') = .error e) ∨
      ∃ a b, calcKdpRayFir cython true (shifted (unitRay nf) (-5) (fun j => if j = 4 then none else some (j + 1)) t) = .ok a ∧
        calcKdpRayFir cython true (shifted (unitRay nf) (-5) (fun j => if j = 4 then none else some (j + 1)) t') = .ok b ∧
        SameKdp 9 (-5) ((if nf = 0 then 1 else 1) * (t' - t)) a b :=
  C125_phase_offset_partial (unitRay nf) (-5) rfl (by show (1 : Int) ≤ 11; norm_num) (fun j => j) (fun _ _ _ => rfl) (fun _ => 1) (1 / 5) 1 rfl
    (fun _ _ => rfl) (by simp [unitRay]) one_ne_zero (.inr rfl) _ true

end Csu.Kdp
