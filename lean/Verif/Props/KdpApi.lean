import Verif.Model.KdpApi
import Verif.Props.KdpGate
/-! # C14-C17, C72: the KDP interface, the filter design and the two kernels -/
namespace Csu.Kdp
open Csu PyFloat KdpSpec

section
variable {α : Type} [PyFloat α]

theorem mapM_isOk {β γ : Type} {f : β → Except PyErr γ} {l : List β} (h : ∀ x ∈ l, ∃ y, f x = .ok y) :
    ∃ r, l.mapM f = .ok r := by
  induction l with
  | nil => exact ⟨[], rfl⟩
  | cons x l ih =>
    obtain ⟨y, hy⟩ := h x (by simp)
    obtain ⟨r, hr⟩ := ih (fun z hz => h z (by simp [hz]))
    exact ⟨y :: r, by rw [List.mapM_cons, hy, hr]; rfl⟩

/-! ## C14: rays are independent -/

/-- the thresholds of one ray, as the argument of a 1-D call -/
def Thsd.ray (t : Thsd α) (r : Nat) : Thsd α :=
  match t with
  | .two f rows => match rows[r]? with
    | some b => .one f b
    | none => t
  | t => t

theorem thsd_ray (t : Thsd α) (r : Nat) (dp b : Buf α) (h : thsd2 t dp r = .ok b) : thsd1 (t.ray r) dp = .ok b := by
  cases t with
  | scalar x => exact h
  | list l => simp only [thsd2] at h; split at h <;> cases h
  | one f c => simp only [thsd2] at h; split at h <;> cases h
  | two f rows =>
    simp only [thsd2] at h
    simp only [Thsd.ray]
    split at h
    · rename_i c hc; rw [hc]; exact h
    · cases h

/-- **C14.** A 2-D call returns, for every ray, exactly what the 1-D call on that ray alone returns (same kernel, same
options, same uncontrolled memory). -/
theorem C14_rays_independent (D : Dialect α) (J : Junk α) (fir : Fir α) (dps dzs rngs : List (Buf α)) (o : KdpOpts α)
    (outs : List (RayOut α))
    (e : kdpWithFir D J (.ok (some fir)) (some (.two dps)) (some (.two dzs)) (some (.two rngs)) o = .ok (.two outs)) :
    outs.length = dps.length ∧
    ∀ (r : Nat) (out : RayOut α), outs[r]? = some out → ∃ dp dz rng, dps[r]? = some dp ∧ dzs[r]? = some dz ∧ rngs[r]? = some rng ∧
      kdpWithFir D { J with nadp := fun _ => J.nadp r } (.ok (some fir)) (some (.one dp)) (some (.one dz)) (some (.one rng))
        { o with thsd := o.thsd.ray r } = .ok (.one out) := by
  have e' : ((List.range dps.length).mapM (ray2 D J fir o dps dzs rngs) >>= fun out => Except.ok (Ret2.two out)) = .ok (.two outs) := by
    simpa [kdpWithFir, Data.ndim, bind, Except.bind] using e
  obtain ⟨l, hm, hl⟩ := bind_ok e'
  cases hl
  have := mapM_get hm
  simp only [List.length_range, List.getElem_range] at this
  refine ⟨this.1, fun r out hr => ?_⟩
  obtain ⟨hlt, rfl⟩ := List.getElem?_eq_some_iff.mp hr
  have hg := this.2 r (by omega) hlt
  unfold ray2 at hg
  split at hg
  · rename_i dp dz rng h1 h2 h3
    refine ⟨dp, dz, rng, h1, h2, h3, ?_⟩
    obtain ⟨t, ht, hg⟩ := bind_ok hg
    have h1 := thsd_ray _ _ _ _ ht
    have hc : calcKdpRayFir D false (rayCall D { J with nadp := fun _ => J.nadp r } fir { o with thsd := o.thsd.ray r } 0 dp dz rng t) =
        .ok outs[r] := hg
    simp only [kdpWithFir, Data.ndim, ne_eq, not_true_eq_false, or_self, if_false]
    show (thsd1 (o.thsd.ray r) dp >>= fun t => _) = _
    rw [h1]
    show (calcKdpRayFir D false _ >>= fun out => _) = _
    rw [hc]; rfl
  · cases hg

/-- Conversely: if every ray alone is processed, so is the 2-D array (thresholds: a number, or one `float32` array per ray). -/
theorem C14_all_rays (D : Dialect α) (J : Junk α) (fir : Fir α) (dps dzs rngs : List (Buf α)) (o : KdpOpts α)
    (hz : dzs.length = dps.length) (hr : rngs.length = dps.length)
    (ht : (∃ x, o.thsd = .scalar x) ∨ ∃ rows, o.thsd = .two true rows ∧ rows.length = dps.length)
    (h : ∀ (r : Nat) (dp dz rng : Buf α), dps[r]? = some dp → dzs[r]? = some dz → rngs[r]? = some rng → ∃ out,
      kdpWithFir D { J with nadp := fun _ => J.nadp r } (.ok (some fir)) (some (.one dp)) (some (.one dz)) (some (.one rng))
        { o with thsd := o.thsd.ray r } = .ok (.one out)) :
    ∃ outs, kdpWithFir D J (.ok (some fir)) (some (.two dps)) (some (.two dzs)) (some (.two rngs)) o = .ok (.two outs) := by
  have : ∀ r ∈ List.range dps.length, ∃ out, ray2 D J fir o dps dzs rngs r = .ok out := by
    intro r hr'
    have hlt := List.mem_range.mp hr'
    have e1 : dps[r]? = some dps[r] := List.getElem?_eq_getElem hlt
    have e2 : dzs[r]? = some (dzs[r]'(by omega)) := List.getElem?_eq_getElem (by omega)
    have e3 : rngs[r]? = some (rngs[r]'(by omega)) := List.getElem?_eq_getElem (by omega)
    obtain ⟨out, ho⟩ := h r _ _ _ e1 e2 e3
    refine ⟨out, ?_⟩
    unfold ray2
    rw [e1, e2, e3]
    simp only
    have hth : ∃ b, thsd2 o.thsd dps[r] r = .ok b := by
      rcases ht with ⟨x, hx⟩ | ⟨rows, hx, hl⟩
      · rw [hx]; exact ⟨_, rfl⟩
      · rw [hx]; simp only [thsd2]
        rw [List.getElem?_eq_getElem (show r < rows.length by omega)]
        exact ⟨_, rfl⟩
    obtain ⟨b, hb⟩ := hth
    rw [hb]
    simp only [kdpWithFir, Data.ndim, ne_eq, not_true_eq_false, or_self, if_false] at ho
    replace ho : (thsd1 (o.thsd.ray r) dps[r] >>= fun t => calcKdpRayFir D false (rayCall D { J with nadp := fun _ => J.nadp r } fir
        { o with thsd := o.thsd.ray r } 0 dps[r] (dzs[r]'(by omega)) (rngs[r]'(by omega)) t) >>= fun out => Except.ok (Ret2.one out)) = .ok (.one out) := ho
    rw [thsd_ray _ _ _ _ hb] at ho
    obtain ⟨t, h1, h2⟩ := bind_ok ho
    cases h1
    obtain ⟨out', h3, h4⟩ := bind_ok h2
    cases h4
    exact h3
  have hm : ∃ outs, (List.range dps.length).mapM (ray2 D J fir o dps dzs rngs) = .ok outs := by
    generalize List.range dps.length = l at this
    induction l with
    | nil => exact ⟨[], rfl⟩
    | cons r l ih =>
      obtain ⟨o1, h1⟩ := this r (by simp)
      obtain ⟨o2, h2⟩ := ih fun s hs => this s (by simp [hs])
      exact ⟨o1 :: o2, by rw [List.mapM_cons, h1, h2]; rfl⟩
  obtain ⟨outs, ho⟩ := hm
  refine ⟨outs, ?_⟩
  simp only [kdpWithFir, Data.ndim, ne_eq, not_true_eq_false, or_self, if_false]
  show ((List.range dps.length).mapM (ray2 D J fir o dps dzs rngs) >>= fun out => _) = _
  rw [ho]; rfl

theorem isOk_one {x : Except PyErr (Ret2 α)} (h : (match x with | .ok (.one _) => true | _ => false) = true) : ∃ out, x = .ok (.one out) := by
  match x, h with
  | .ok (.one out), _ => exact ⟨out, rfl⟩

/-- The hypotheses of C14 are met: two rays of three gates (in the second the middle phase is bad), one threshold per gate
and ray. -/
example :
    let b := fun (l : List QF) => arr l 0
    let o : KdpOpts QF := ⟨.two true [b [12, 12, 12], b [5, 5, 5]], 1, QF.q (-32768), 1⟩
    let J : Junk QF := ⟨fun _ => 0, fun _ => 0⟩
    let rows := [b [1, 1, 1], b [2, QF.q (-32768), 4]]
    (∃ outs, kdpWithFir cython J (.ok (some ⟨2, 1, [0.25, 0.5, 0.25]⟩)) (some (.two rows)) (some (.two rows)) (some (.two [b [1, 2, 3], b [1, 2, 3]])) o =
      .ok (.two outs)) ∧ rows.length = 2 := by
  refine ⟨?_, rfl⟩
  exact C14_all_rays cython _ _ _ _ _ _ rfl rfl (.inr ⟨_, rfl, rfl⟩) (by
    intro r dp dz rng h1 h2 h3
    match r with
    | 0 => cases h1; cases h2; cases h3; exact isOk_one (by decide +kernel)
    | 1 => cases h1; cases h2; cases h3; exact isOk_one (by decide +kernel)
    | r + 2 => cases h1)

/-! ## C15: argument contract -/

/-- Missing data returns `None`. -/
theorem C15_missing (D : Dialect α) (J : Junk α) (fir : Except PyErr (Option (Fir α))) (dp dz rng : Option (Data α)) (o : KdpOpts α)
    (h : dp = none ∨ dz = none ∨ rng = none) : ∃ r, kdpWithFir D J fir dp dz rng o = .ok r ∧ r = .none := by
  refine ⟨.none, ?_, rfl⟩
  unfold kdpWithFir
  rcases h with rfl | rfl | rfl
  · rfl
  · cases dp <;> rfl
  · cases dp <;> cases dz <;> rfl

/-- Arrays of differing dimensionality return `None`. -/
theorem C15_ndim_mismatch (D : Dialect α) (J : Junk α) (fir : Except PyErr (Option (Fir α))) (dp dz rng : Data α) (o : KdpOpts α)
    (h : dp.ndim ≠ dz.ndim ∨ dp.ndim ≠ rng.ndim) : kdpWithFir D J fir (some dp) (some dz) (some rng) o = .ok .none := by
  unfold kdpWithFir
  simp only [if_pos h]

/-- With a usable filter, a dimensionality other than 1 or 2 returns `None`. -/
theorem C15_other_ndim (D : Dialect α) (J : Junk α) (fir : Fir α) (dp dz rng : Data α) (o : KdpOpts α)
    (h1 : dp.ndim ≠ 1) (h2 : dp.ndim ≠ 2) : kdpWithFir D J (.ok (some fir)) (some dp) (some dz) (some rng) o = .ok .none := by
  unfold kdpWithFir
  by_cases hn : dp.ndim ≠ dz.ndim ∨ dp.ndim ≠ rng.ndim
  · simp only [if_pos hn]
  · simp only [if_neg hn]
    cases dp with
    | one b => simp [Data.ndim] at h1
    | two b => simp [Data.ndim] at h2
    | other k => rfl

/-- An odd filter order returns `(None, None, None)`. -/
theorem C15_odd_order (D : Dialect α) (J : Junk α) (dp dz rng : Data α) (o : KdpOpts α)
    (h : dp.ndim = dz.ndim) (h' : dp.ndim = rng.ndim) :
    kdpWithFir D J (.ok none) (some dp) (some dz) (some rng) o = .ok .noneTriple := by
  unfold kdpWithFir
  simp only [h, ne_eq, not_true_eq_false, false_or]
  rw [if_neg (by rw [← h, h']; simp)]; rfl

/-- An even `std_gate` behaves exactly like 11; an odd one is used as it is. -/
theorem C15_std_gate (D : Dialect α) (J : Junk α) (fir : Except PyErr (Option (Fir α))) (dp dz rng : Option (Data α)) (o : KdpOpts α)
    (h : o.stdGate % 2 = 0) : kdpWithFir D J fir dp dz rng o = kdpWithFir D J fir dp dz rng { o with stdGate := 11 } := by
  have hf : fixStdGate o.stdGate = fixStdGate 11 := by unfold fixStdGate; rw [if_pos (by omega)]; rfl
  have hr : ∀ fir ray dp dz rng t, rayCall D J fir o ray dp dz rng t = rayCall D J fir { o with stdGate := 11 } ray dp dz rng t := by
    intro fir ray dp dz rng t; unfold rayCall; rw [hf]
  have h2 : ∀ fir dps dzs rngs, ray2 D J fir o dps dzs rngs = ray2 D J fir { o with stdGate := 11 } dps dzs rngs := by
    intro fir dps dzs rngs
    funext r
    unfold ray2
    split <;> simp only [hr]
  unfold kdpWithFir
  simp only [hr, h2]

/-- cases for C15: 1-D phase with 2-D reflectivity; 3-D data; an even `std_gate` -/
example : (Data.one ⟨1, fun _ => (0 : QF)⟩).ndim ≠ (Data.two [⟨1, fun _ => (0 : QF)⟩]).ndim ∧
    (Data.other 3 : Data QF).ndim ≠ 1 ∧ (Data.other 3 : Data QF).ndim ≠ 2 ∧ 10 % 2 = 0 := by decide

/-- a vector of thresholds (as a `float32` array) is accepted for 1-D data: the call is the kernel call with it -/
theorem C15_thresholds_1d (D : Dialect α) (J : Junk α) (fir : Fir α) (dp dz rng b : Buf α) (o : KdpOpts α)
    (h : o.thsd = .one true b) :
    kdpWithFir D J (.ok (some fir)) (some (.one dp)) (some (.one dz)) (some (.one rng)) o =
      (calcKdpRayFir D false (rayCall D J fir o 0 dp dz rng b)).map .one := by
  simp only [kdpWithFir, Data.ndim, ne_eq, not_true_eq_false, or_self, if_false]
  show (thsd1 o.thsd dp >>= fun t => _) = _
  rw [h]
  show (calcKdpRayFir D false _ >>= fun out => _) = _
  cases calcKdpRayFir D false (rayCall D J fir o 0 dp dz rng b) <;> rfl

/-- C79, full statement: a 1-D array of per-range thresholds is accepted with 2-D data. -/
def C79Full (α : Type) [PyFloat α] : Prop :=
  ∀ (D : Dialect α) (J : Junk α) (fir : Fir α) (dps dzs rngs : List (Buf α)) (o : KdpOpts α) (b : Buf α) (f32 : Bool),
    o.thsd = .one f32 b → (∀ r ∈ dps, r.len = b.len) → dps.length = dzs.length → dps.length = rngs.length →
    ∀ e, kdpWithFir D J (.ok (some fir)) (some (.two dps)) (some (.two dzs)) (some (.two rngs)) o ≠ .error e

/-- It never is: for every 2-D array with at least one ray, a 1-D array of thresholds raises. -/
theorem C79_thresholds_2d_raise (D : Dialect α) (J : Junk α) (fir : Fir α) (dps dzs rngs : List (Buf α)) (o : KdpOpts α)
    (b : Buf α) (f32 : Bool) (h : o.thsd = .one f32 b) (hp : dps ≠ []) (hz : dps.length = dzs.length) (hr : dps.length = rngs.length) :
    ∃ e, kdpWithFir D J (.ok (some fir)) (some (.two dps)) (some (.two dzs)) (some (.two rngs)) o = .error e ∧
      (e = .valueError ∨ e = .indexError) := by
  obtain ⟨dp, dps, rfl⟩ := List.exists_cons_of_ne_nil hp
  obtain ⟨dz, dzs, rfl⟩ := List.exists_cons_of_ne_nil (l := dzs) (by rintro rfl; simp at hz)
  obtain ⟨rng, rngs, rfl⟩ := List.exists_cons_of_ne_nil (l := rngs) (by rintro rfl; simp at hr)
  simp only [kdpWithFir, Data.ndim, ne_eq, not_true_eq_false, or_self, if_false, List.length_cons, List.range_succ_eq_map]
  show ∃ e, (List.mapM (ray2 D J fir o (dp :: dps) (dz :: dzs) (rng :: rngs)) _ >>= fun out => _) = .error e ∧ _
  rw [List.mapM_cons]
  have h1 : ∃ e, ray2 D J fir o (dp :: dps) (dz :: dzs) (rng :: rngs) 0 = .error e ∧ (e = .valueError ∨ e = .indexError) := by
    unfold ray2
    simp only [List.getElem?_cons_zero, h, thsd2]
    by_cases hb : 0 < b.len
    · exact ⟨.valueError, by rw [if_pos hb]; rfl, .inl rfl⟩
    · exact ⟨.indexError, by rw [if_neg hb]; rfl, .inr rfl⟩
  obtain ⟨e, he, hor⟩ := h1
  exact ⟨e, by rw [he]; rfl, hor⟩

/-- **C79 is false.** -/
theorem C79_full_false : ¬ C79Full α := by
  intro h
  let b : Buf α := ⟨1, fun _ => 0⟩
  obtain ⟨e, he, -⟩ := C79_thresholds_2d_raise cython ⟨fun _ => 0, fun _ => 0⟩ ⟨2, 1, [0, 1, 0]⟩ [b] [b] [b]
    ⟨.one true b, 1, 0, 11⟩ b true rfl (by simp) rfl rfl
  exact h cython ⟨fun _ => 0, fun _ => 0⟩ ⟨2, 1, [0, 1, 0]⟩ [b] [b] [b] ⟨.one true b, 1, 0, 11⟩ b true rfl (by simp) rfl rfl e he

/-- **C14, selections.**  Permuting, dropping or repeating rays does the same to the results: if ray `j` of a second array is ray `f j`
of the first, for every `j`, the second call succeeds and its ray `j` is ray `f j` of the first result. -/
theorem C14_selection (D : Dialect α) (J J' : Junk α) (fir : Fir α) (dps dzs rngs dps' dzs' rngs' : List (Buf α)) (o o' : KdpOpts α)
    (outs : List (RayOut α))
    (e : kdpWithFir D J (.ok (some fir)) (some (.two dps)) (some (.two dzs)) (some (.two rngs)) o = .ok (.two outs))
    (f : Nat → Nat) (hf : ∀ j, j < dps'.length → f j < dps.length)
    (h1 : ∀ j, j < dps'.length → dps'[j]? = dps[f j]?) (h2 : ∀ j, j < dps'.length → dzs'[j]? = dzs[f j]?)
    (h3 : ∀ j, j < dps'.length → rngs'[j]? = rngs[f j]?)
    (ho : o' = { o with thsd := o'.thsd })
    (ht : (∃ x, o.thsd = .scalar x ∧ o'.thsd = .scalar x) ∨
      ∃ rows rows', o.thsd = .two true rows ∧ o'.thsd = .two true rows' ∧ ∀ j, j < dps'.length → rows'[j]? = rows[f j]?)
    (hJ : J'.after = J.after ∧ ∀ j, j < dps'.length → J'.nadp j = J.nadp (f j)) :
    ∃ outs', kdpWithFir D J' (.ok (some fir)) (some (.two dps')) (some (.two dzs')) (some (.two rngs')) o' = .ok (.two outs') ∧
      outs'.length = dps'.length ∧ ∀ j, j < dps'.length → outs'[j]? = outs[f j]? := by
  have e' : ((List.range dps.length).mapM (ray2 D J fir o dps dzs rngs) >>= fun out => Except.ok (Ret2.two out)) = .ok (.two outs) := by
    simpa [kdpWithFir, Data.ndim, bind, Except.bind] using e
  obtain ⟨l, hm, hl⟩ := bind_ok e'
  cases hl
  have hg := mapM_get hm
  simp only [List.length_range, List.getElem_range] at hg
  have key : ∀ j, j < dps'.length → ray2 D J' fir o' dps' dzs' rngs' j = ray2 D J fir o dps dzs rngs (f j) := by
    intro j hj
    unfold ray2
    rw [h1 j hj, h2 j hj, h3 j hj]
    cases dps[f j]? with
    | none => rfl
    | some dp =>
      cases dzs[f j]? with
      | none => rfl
      | some dz =>
        cases rngs[f j]? with
        | none => rfl
        | some rng =>
          have hth : thsd2 o'.thsd dp j = thsd2 o.thsd dp (f j) := by
            rcases ht with ⟨x, a, b⟩ | ⟨rows, rows', a, b, c⟩
            · rw [a, b]; rfl
            · rw [a, b]; simp only [thsd2, c j hj]
          have hcall : ∀ t, rayCall D J' fir o' j dp dz rng t = rayCall D J fir o (f j) dp dz rng t := by
            intro t
            unfold rayCall coefBuf
            rw [hJ.1, hJ.2 j hj, ho]
          simp only [hth, hcall]
  obtain ⟨outs', hm'⟩ : ∃ outs', (List.range dps'.length).mapM (ray2 D J' fir o' dps' dzs' rngs') = .ok outs' := by
    apply mapM_isOk
    intro j hj
    rw [key j (List.mem_range.mp hj)]
    have := hf j (List.mem_range.mp hj)
    exact ⟨_, hg.2 (f j) this (by omega)⟩
  have hg' := mapM_get hm'
  simp only [List.length_range, List.getElem_range] at hg'
  refine ⟨outs', ?_, hg'.1, ?_⟩
  · have : kdpWithFir D J' (.ok (some fir)) (some (.two dps')) (some (.two dzs')) (some (.two rngs')) o' =
        ((List.range dps'.length).mapM (ray2 D J' fir o' dps' dzs' rngs') >>= fun out => Except.ok (Ret2.two out)) := by
      simp [kdpWithFir, Data.ndim, bind, Except.bind]
    rw [this, hm']
    rfl
  · intro j hj
    have a := hg'.2 j hj (by omega)
    have hfj := hf j hj
    rw [key j hj, hg.2 (f j) hfj (by omega)] at a
    rw [List.getElem?_eq_getElem (by omega), List.getElem?_eq_getElem (by omega)]
    exact congrArg some (Except.ok.inj a).symm

/-- The hypotheses of the selection theorem are met: two rays, exchanged (their thresholds too). -/
example :
    let b := fun (l : List QF) => arr l 0
    let J : Junk QF := ⟨fun _ => 0, fun _ => 0⟩
    let fir : Fir QF := ⟨2, 1, [0.25, 0.5, 0.25]⟩
    let o := fun (t : List (Buf QF)) => (⟨.two true t, 1, QF.q (-32768), 1⟩ : KdpOpts QF)
    let p := b [1, 1, 1]; let q := b [2, QF.q (-32768), 4]; let r := b [1, 2, 3]
    ∃ outs outs', kdpWithFir cython J (.ok (some fir)) (some (.two [p, q])) (some (.two [p, q])) (some (.two [r, r])) (o [p, r]) = .ok (.two outs) ∧
      kdpWithFir cython J (.ok (some fir)) (some (.two [q, p])) (some (.two [q, p])) (some (.two [r, r])) (o [r, p]) = .ok (.two outs') ∧
      outs'[0]? = outs[1]? ∧ outs'[1]? = outs[0]? := by
  intro b J fir o p q r
  obtain ⟨outs, h⟩ := C14_all_rays cython J fir [p, q] [p, q] [r, r] (o [p, r]) rfl rfl (.inr ⟨_, rfl, rfl⟩) (by
    intro r dp dz rng h1 h2 h3
    match r with
    | 0 => cases h1; cases h2; cases h3; exact isOk_one (by decide +kernel)
    | 1 => cases h1; cases h2; cases h3; exact isOk_one (by decide +kernel)
    | r + 2 => cases h1)
  have two : ∀ (P : Nat → Prop), P 0 → P 1 → ∀ j, j < 2 → P j := fun P h0 h1 j hj =>
    match j, hj with
    | 0, _ => h0
    | 1, _ => h1
  obtain ⟨outs', h', -, hs⟩ := C14_selection cython J J fir [p, q] [p, q] [r, r] [q, p] [q, p] [r, r] (o [p, r]) (o [r, p]) outs h
    (fun j => 1 - j) (two _ (by simp) (by simp)) (two _ rfl rfl) (two _ rfl rfl) (two _ rfl rfl) rfl
    (.inr ⟨_, _, rfl, rfl, two _ rfl rfl⟩) ⟨rfl, two _ rfl rfl⟩
  exact ⟨outs, outs', h, h', hs 0 (by simp), hs 1 (by simp)⟩

/-! ## C105: forms of the threshold -/

/-- **C105, scalar.**  A number as threshold behaves exactly like the constant float32 vector (1-D data) or float32 array (2-D data)
with that number, rounded to float32. -/
theorem C105_scalar_is_constant (D : Dialect α) (J : Junk α) (fir : Except PyErr (Option (Fir α))) (o : KdpOpts α) (x : α) (h : o.thsd = .scalar x) :
    (∀ dp dz rng : Buf α, kdpWithFir D J fir (some (.one dp)) (some (.one dz)) (some (.one rng)) o =
      kdpWithFir D J fir (some (.one dp)) (some (.one dz)) (some (.one rng)) { o with thsd := .one true ⟨dp.len, fun _ => f32 x⟩ }) ∧
    (∀ dps dzs rngs : List (Buf α), kdpWithFir D J fir (some (.two dps)) (some (.two dzs)) (some (.two rngs)) o =
      kdpWithFir D J fir (some (.two dps)) (some (.two dzs)) (some (.two rngs))
        { o with thsd := .two true (dps.map (fun dp => ⟨dp.len, fun _ => f32 x⟩)) }) := by
  constructor
  · intro dp dz rng
    simp only [kdpWithFir, h, thsd1, thsdBuf, if_true]
    rfl
  · intro dps dzs rngs
    have hr : ∀ fir, ray2 D J fir o dps dzs rngs =
        ray2 D J fir { o with thsd := .two true (dps.map (fun dp => ⟨dp.len, fun _ => f32 x⟩)) } dps dzs rngs := by
      intro fir
      funext ray
      unfold ray2
      cases hd : dps[ray]? with
      | none => rfl
      | some dp =>
        cases dzs[ray]? with
        | none => rfl
        | some dz =>
          cases rngs[ray]? with
          | none => rfl
          | some rng =>
            simp only [h, thsd2, List.getElem?_map, hd, Option.map_some, thsdBuf, if_true]
            rfl
    simp only [kdpWithFir, hr]

/-- **C105, rejected forms, 1-D data.**  A Python list is a TypeError; a vector that is not float32, and a 2-D array, are a ValueError. -/
theorem C105_rejected_1d (D : Dialect α) (J : Junk α) (fir : Fir α) (o : KdpOpts α) (dp dz rng : Buf α) :
    (∀ l, o.thsd = .list l →
      kdpWithFir D J (.ok (some fir)) (some (.one dp)) (some (.one dz)) (some (.one rng)) o = .error .typeError) ∧
    (∀ b, o.thsd = .one false b →
      kdpWithFir D J (.ok (some fir)) (some (.one dp)) (some (.one dz)) (some (.one rng)) o = .error .valueError) ∧
    (∀ f b, o.thsd = .two f b →
      kdpWithFir D J (.ok (some fir)) (some (.one dp)) (some (.one dz)) (some (.one rng)) o = .error .valueError) := by
  refine ⟨fun l h => ?_, fun b h => ?_, fun f b h => ?_⟩ <;>
  · simp only [kdpWithFir, Data.ndim, ne_eq, not_true_eq_false, or_self, if_false, h, thsd1, thsdBuf]
    rfl

/-- **C105, rejected forms, 2-D data** with at least one ray: a Python list with a number for the first ray is a TypeError, and a 2-D
array that is not float32 is a ValueError. -/
theorem C105_rejected_2d (D : Dialect α) (J : Junk α) (fir : Fir α) (o : KdpOpts α) (dp dz rng : Buf α) (dps dzs rngs : List (Buf α)) :
    (∀ x l, o.thsd = .list (x :: l) → kdpWithFir D J (.ok (some fir)) (some (.two (dp :: dps))) (some (.two (dz :: dzs)))
      (some (.two (rng :: rngs))) o = .error .typeError) ∧
    (∀ b l, o.thsd = .two false (b :: l) → kdpWithFir D J (.ok (some fir)) (some (.two (dp :: dps))) (some (.two (dz :: dzs)))
      (some (.two (rng :: rngs))) o = .error .valueError) := by
  constructor
  · intro x l h
    simp only [kdpWithFir, Data.ndim, ne_eq, not_true_eq_false, or_self, if_false, List.length_cons, List.range_succ_eq_map]
    show (List.mapM (ray2 D J fir o (dp :: dps) (dz :: dzs) (rng :: rngs)) _ >>= fun out => _) = _
    rw [List.mapM_cons]
    have : ray2 D J fir o (dp :: dps) (dz :: dzs) (rng :: rngs) 0 = .error .typeError := by
      unfold ray2
      simp only [List.getElem?_cons_zero, h, thsd2, List.length_cons, Nat.zero_lt_succ, if_true, thsdBuf]
      rfl
    rw [this]
    rfl
  · intro b l h
    simp only [kdpWithFir, Data.ndim, ne_eq, not_true_eq_false, or_self, if_false, List.length_cons, List.range_succ_eq_map]
    show (List.mapM (ray2 D J fir o (dp :: dps) (dz :: dzs) (rng :: rngs)) _ >>= fun out => _) = _
    rw [List.mapM_cons]
    have : ray2 D J fir o (dp :: dps) (dz :: dzs) (rng :: rngs) 0 = .error .valueError := by
      unfold ray2
      simp only [List.getElem?_cons_zero, h, thsd2, List.length_cons, Nat.zero_lt_succ, if_true, thsdBuf]
      rfl
    rw [this]
    rfl

/-! ## C17: the two kernels -/

/-- C17, full statement: both kernels return the same. -/
def C17Full (α : Type) [PyFloat α] : Prop :=
  ∀ R : Ray α, ApiCall R → calcKdpRayFir cython false R = calcKdpRayFir fortran false R

/-- **C17 is false.** -/
theorem C17_full_false : ¬ C17Full QF := by
  intro h
  have := h _ (tiny_api 0)
  revert this
  decide +kernel

/-- **C17, what holds**: both kernels return the same standard deviation in exact arithmetic (where a store to float32 does not round; the Fortran
kernel computes in single precision, the Cython kernel in double), and with zero passes the same phase. -/
theorem C17_std_and_phase_partial (chk : Bool) (R : Ray α) (out out' : RayOut α)
    (e : calcKdpRayFir cython chk R = .ok out) (e' : calcKdpRayFir fortran chk R = .ok out') :
    ((∀ x : α, f32 x = x) → out.sd = out'.sd) ∧ (R.nf = 0 → out.dp = out'.dp) := by
  obtain ⟨yz, r⟩ := calc_run e
  obtain ⟨yz', r'⟩ := calc_run e'
  constructor
  · intro hex
    apply List.ext_getElem (by rw [r.sdLen, r'.sdLen])
    intro i h1 h2
    have a := r.sd i h1
    have b := r'.sd i h2
    unfold sdAt at a b
    split at a
    · rename_i hc
      rw [if_pos hc] at b
      obtain ⟨xs, hx, a⟩ := bind_ok a
      rw [hx] at b
      dsimp only at a
      replace b : (if _ then _ else _) = _ := b
      have hwD : ∀ (D : Dialect α) x, D.w x = x := by intro D x; unfold Dialect.w; split <;> simp [hex]
      have hst : sdStep (fortran (α := α)) = sdStep cython := by funext b s x; unfold sdStep; simp only [hwD]
      simp only [hst, hwD, hex] at a b
      split at a
      · rename_i hN
        split at a
        · cases a
        · rw [if_pos hN, if_neg (by simp [fortran])] at b
          exact Except.ok.inj (a.symm.trans b)
      · rename_i hN
        rw [if_neg hN] at b
        exact Except.ok.inj (a.symm.trans b)
    · rename_i hc
      rw [if_neg hc] at b
      exact Except.ok.inj (a.symm.trans b)
  · intro hn
    apply List.ext_getElem (by rw [r.dpLen, r'.dpLen])
    intro i h1 h2
    have hi : i < R.n := by rw [← r.dpLen]; exact h1
    have a := C11_no_passes cython chk R hn out e i hi
    have b := C11_no_passes fortran chk R hn out' e' i hi
    rw [List.getElem?_eq_getElem h1] at a
    rw [List.getElem?_eq_getElem h2] at b
    exact Option.some.inj (a.trans b.symm)
end

/-- the hypotheses of `C17_std_and_phase_partial` are met -/
example : (calcKdpRayFir cython false (tiny 0)).isOk = true ∧ (calcKdpRayFir fortran false (tiny 0)).isOk = true ∧
    ∀ x : QF, f32 x = x := ⟨by decide +kernel, by decide +kernel, fun _ => rfl⟩

/-- C17 for KDP: on phase that is linear in range over the window the two kernels return the same KDP. -/
theorem C17_linear_phase_partial (chk : Bool) (R : Ray XR) (out out' : RayOut XR) (hnf : R.nf = 0)
    (e : calcKdpRayFir cython chk R = .ok out) (e' : calcKdpRayFir fortran chk R = .ok out') (i : Nat) (hi : i < R.n)
    (hb : (R.dz.mem i ==. R.bad) = false) (w : Nat) (hw : Width R (R.dz.mem i) w) (h0 : w / 2 ≤ i) (h1 : i + w / 2 < R.n)
    (he : w % 2 = 0) (hw2 : 2 ≤ w) (ρ φ : Nat → ℝ)
    (hr : ∀ j, j < R.n → R.rng.mem j = .fin (ρ j) ∧ R.dp.mem j = .fin (φ j) ∧ (XR.fin (ρ j) ==. R.bad) = false ∧
      (XR.fin (φ j) ==. R.bad) = false ∧ ρ j ≤ 1e35 ∧ φ j ≤ 1e35)
    (hinj : ∀ j k, j < R.n → k < R.n → ρ j = ρ k → j = k) (k c : ℝ) (hlin : ∀ j, j < R.n → φ j = 2 * k * ρ j + c) :
    out.kd[i]? = some (.fin k) ∧ out'.kd[i]? = some (.fin k) := by
  have key : ∀ (D : Dialect XR), (D = cython ∨ D = fortran) → ∀ o : RayOut XR, calcKdpRayFir D chk R = .ok o →
      o.kd[i]? = some (.fin k) := by
    intro D hD o ho
    have hwl : winLen D w = w ∨ winLen D w = w + 1 := by
      rcases hD with rfl | rfl <;> simp only [winLen, cython, fortran] <;> simp <;> omega
    have hdp : ∀ j, j < R.n → o.dp.getD j .nan = .fin (φ j) := by
      intro j hj
      rw [List.getD_eq_getElem?_getD, C11_no_passes D chk R hnf o ho j hj, (hr j hj).2.1]; rfl
    have hlt : ∀ k, k < winLen D w → i - w / 2 + k < R.n := by intro k hk; omega
    have hgs : goodSamples R o (i - w / 2) (winLen D w) =
        ((List.range (winLen D w)).map (fun k => (ρ (i - w / 2 + k), φ (i - w / 2 + k)))).map lift := by
      unfold goodSamples
      rw [List.filter_eq_self.mpr, List.map_map]
      · apply List.map_congr_left
        intro k hk
        have hk := hlt k (List.mem_range.mp hk)
        simp only [Function.comp, lift, hdp _ hk, (hr _ hk).1]
      · intro k hk
        have hk := hlt k (List.mem_range.mp hk)
        rw [hdp _ hk]
        simp [PyFloat.ne, (hr _ hk).2.2.2.1]
    refine C12_linear_phase D hD chk R o ho i hi hb w hw h0 h1 _ hgs ?_ ?_ ?_ k c ?_
    · rw [List.length_map, List.length_range]
      have h2 : (w : ℝ) ≤ (winLen D w : ℝ) := by
        have : w ≤ winLen D w := by omega
        exact_mod_cast this
      have h3 : (2 : ℝ) ≤ w := by exact_mod_cast hw2
      norm_num; linarith
    · intro p hp
      obtain ⟨q, hq, rfl⟩ := List.mem_map.mp hp
      have hqr := hr _ (hlt q (List.mem_range.mp hq))
      rcases hD with rfl | rfl
      · exact ⟨hqr.2.2.1, hqr.2.2.2.1⟩
      · have hlit : (1e35 : XR) = .fin 1e35 := XR.fsci _ _ _
        simp only [fortran, hlit, XR.fgt, decide_eq_false_iff_not]
        exact ⟨by linarith [hqr.2.2.2.2.1], by linarith [hqr.2.2.2.2.2]⟩
    · refine ⟨_, List.mem_map.mpr ⟨0, List.mem_range.mpr (by omega), rfl⟩, _, List.mem_map.mpr ⟨1, List.mem_range.mpr (by omega), rfl⟩, ?_⟩
      intro hc
      have := hinj _ _ (hlt 0 (by omega)) (hlt 1 (by omega)) hc
      omega
    · intro p hp
      obtain ⟨q, hq, rfl⟩ := List.mem_map.mp hp
      exact hlin _ (hlt q (List.mem_range.mp hq))
  exact ⟨key cython (.inl rfl) out e, key fortran (.inr rfl) out' e'⟩

/-- its hypotheses are met: phase `3 + 2 j`, ranges `j`, reflectivity 40 (width 2), both kernels give KDP 1 -/
example : ∃ out out', calcKdpRayFir cython false { linRay with nf := 0 } = .ok out ∧ calcKdpRayFir fortran false { linRay with nf := 0 } = .ok out' ∧
    out.kd[1]? = some (.fin 1) ∧ out'.kd[1]? = some (.fin 1) := by
  have hr : Ranges { linRay with nf := 0 } (fun j => (j : ℝ)) := ⟨linRay_ranges.val, linRay_ranges.inj⟩
  obtain ⟨out, e⟩ := C71_cython_returns { linRay with nf := 0 } _ hr (by decide) (by decide) (by decide)
  obtain ⟨out', e'⟩ := C71_fortran_returns { linRay with nf := 0 }
  have hw : Width { linRay with nf := 0 } (XR.fin 40) 2 :=
    Width.mid (R := { linRay with nf := 0 }) (by simp; norm_num) (by simp; norm_num)
  refine ⟨out, out', e, e', ?_⟩
  refine C17_linear_phase_partial false _ out out' rfl e e' 1 (by decide) ?_ 2 hw (by decide) (by decide) (by decide) (by decide)
    (fun j => j) (fun j => 3 + 2 * j) (fun j hj => ?_) (fun j k _ _ h => by exact_mod_cast h) 1 3 (fun j _ => by ring)
  · show (XR.fin 40 ==. XR.fin (-32768)) = false
    simp; norm_num
  · have h0 : (0 : ℝ) ≤ j := by positivity
    have h3 : (j : ℝ) ≤ 3 := by
      have : j ≤ 3 := Nat.le_of_lt hj
      exact_mod_cast this
    have h9 : (9 : ℝ) ≤ 1e35 := by norm_num
    refine ⟨rfl, rfl, ?_, ?_, by linarith, by linarith⟩
    · show (XR.fin (j : ℝ) ==. XR.fin (-32768)) = false
      simp only [XR.feq, decide_eq_false_iff_not]; intro h; linarith
    · show (XR.fin (3 + 2 * (j : ℝ)) ==. XR.fin (-32768)) = false
      simp only [XR.feq, decide_eq_false_iff_not]; intro h; linarith

/-! ## C16: the filter order, C72: the filter itself -/

theorem truncR_nonneg {x : ℝ} (h : 0 ≤ x) : XR.truncR x = ⌊x⌋ := by simp [XR.truncR, h]

theorem firOrder_eq (gs window : ℝ) : firOrder gs window = XR.truncR (1000 * window / gs) := by
  unfold firOrder; rw [mul_comm]

/-- **C16.** For every positive gate spacing and window: an odd order returns `None`; order 0 raises ValueError;
every other even order succeeds with `order + 1` coefficients and gain 1. -/
theorem C16_order (gs window : ℝ) (hg : 0 < gs) (hw : 0 < window) :
    (XR.truncR (1000 * window / gs) % 2 = 1 → getFir gs window = .ok none) ∧
    (XR.truncR (1000 * window / gs) = 0 → getFir gs window = .error .valueError) ∧
    (XR.truncR (1000 * window / gs) % 2 = 0 → XR.truncR (1000 * window / gs) ≠ 0 → ∃ f, getFir gs window = .ok (some f) ∧
      (f.order : ℤ) = XR.truncR (1000 * window / gs) ∧ (f.coef.length : ℤ) = XR.truncR (1000 * window / gs) + 1 ∧
      f.gain = .fin 1) := by
  rw [← firOrder_eq]
  have hn : 0 ≤ firOrder gs window := by
    rw [firOrder_eq, truncR_nonneg (by positivity)]; exact Int.floor_nonneg.mpr (by positivity)
  refine ⟨fun h => ?_, fun h => ?_, fun h h0 => ?_⟩
  · unfold getFir; rw [if_neg hg.ne', if_pos (by omega)]
  · unfold getFir; rw [if_neg hg.ne', if_neg (by omega), if_pos h]
  · unfold getFir
    rw [if_neg hg.ne', if_neg (by omega), if_neg h0]
    have h2 : 2 ≤ firOrder gs window := by omega
    have h2r : (2 : ℝ) ≤ firOrder gs window := by exact_mod_cast h2
    have hf1 : 0 < (0.08 : ℝ) / (firOrder gs window / 20) := by positivity
    have hf2 : (0.08 : ℝ) / (firOrder gs window / 20) < 1 := by
      rw [div_lt_one (by positivity)]; norm_num; linarith
    unfold firwin
    dsimp only
    rw [if_pos ⟨hf1, hf2, by omega⟩]
    refine ⟨_, rfl, ?_, ?_, rfl⟩
    · dsimp only; omega
    · dsimp only; rw [List.length_map, List.length_map, List.length_range]; omega

/-- **C16.** `get_fir` returns a filter exactly when the order `trunc(1000 window / gs)` is even and not zero. -/
theorem C16_succeeds_iff (gs window : ℝ) (hg : 0 < gs) (hw : 0 < window) :
    (∃ f, getFir gs window = .ok (some f)) ↔
      XR.truncR (1000 * window / gs) % 2 = 0 ∧ XR.truncR (1000 * window / gs) ≠ 0 := by
  obtain ⟨h1, h2, h3⟩ := C16_order gs window hg hw
  constructor
  · rintro ⟨f, hf⟩
    constructor
    · by_contra hc
      rw [h1 (by omega)] at hf; cases hf
    · intro hc; rw [h2 hc] at hf; cases hf
  · rintro ⟨ha, hb⟩
    obtain ⟨f, hf, -⟩ := h3 ha hb
    exact ⟨f, hf⟩

/-- the defaults (150 m, 3 km) have order 20 -/
example : XR.truncR (1000 * 3 / 150) % 2 = 0 ∧ XR.truncR (1000 * 3 / 150) ≠ 0 := by
  have : XR.truncR (1000 * 3 / 150) = 20 := by
    rw [truncR_nonneg (by norm_num), Int.floor_eq_iff]; norm_num
  rw [this]; decide

theorem sinc_pos {x : ℝ} (h : |x| < 1) : 0 < sinc x := by
  unfold sinc
  split
  · exact one_pos
  · rename_i hx
    have hpi := Real.pi_pos
    rcases lt_or_gt_of_ne hx with hn | hp
    · have h1 : 0 < -x := by linarith
      have h2 : -x < 1 := by rw [abs_of_neg hn] at h; exact h
      have : 0 < Real.sin (Real.pi * (-x)) := Real.sin_pos_of_pos_of_lt_pi (by positivity) (by nlinarith)
      rw [mul_neg, Real.sin_neg] at this
      exact div_pos_of_neg_of_neg (by linarith) (by nlinarith)
    · have h2 : x < 1 := by rw [abs_of_pos hp] at h; exact h
      exact div_pos (Real.sin_pos_of_pos_of_lt_pi (by positivity) (by nlinarith)) (by positivity)

theorem sinc_neg (x : ℝ) : sinc (-x) = sinc x := by
  unfold sinc
  simp only [neg_eq_zero, mul_neg, Real.sin_neg, neg_div_neg_eq]

theorem rawTap_symm (n : Nat) (f s : ℝ) (k : Nat) (hk : k < n) : rawTap n f s (n - 1 - k) = rawTap n f s k := by
  have hm : (((n - 1 - k : Nat) : ℝ) - ((n : ℝ) - 1) / 2) = -((k : ℝ) - ((n : ℝ) - 1) / 2) := by
    rw [Nat.cast_sub (by omega), Nat.cast_sub (by omega)]; push_cast; ring
  unfold rawTap
  dsimp only
  rw [hm, mul_neg, sinc_neg, neg_sq]

/-- **C72.** For every gate spacing and window for which `get_fir` succeeds, its filter is symmetric, has only positive
coefficients, and they sum to one (unit gain for constant phase). -/
theorem C72_filter_design (gs window : ℝ) (hg : 0 < gs) (hw : 0 < window) (f : Fir XR) (h : getFir gs window = .ok (some f)) :
    ∃ c : Nat → ℝ, f.order % 2 = 0 ∧ f.coef = (List.range (f.order + 1)).map (fun k => XR.fin (c k)) ∧
      (∀ k ≤ f.order, c k = c (f.order - k)) ∧ (∀ k ≤ f.order, 0 < c k) ∧ ∑ k ∈ Finset.range (f.order + 1), c k = 1 := by
  have hn : 0 ≤ firOrder gs window := by
    rw [firOrder_eq, truncR_nonneg (by positivity)]; exact Int.floor_nonneg.mpr (by positivity)
  unfold getFir at h
  rw [if_neg hg.ne'] at h
  split at h
  · cases h
  split at h
  · cases h
  rename_i he h0
  dsimp only at h
  obtain ⟨taps, ht, h⟩ := bind_ok h
  cases h
  unfold firwin at ht
  split at ht
  swap
  · cases ht
  rename_i hfr
  cases ht
  set N := firOrder gs window with hN
  have h2r : (2 : ℝ) ≤ N := by
    have : 2 ≤ N := by omega
    exact_mod_cast this
  set fr : ℝ := 0.08 / ((N : ℝ) / 20) with hfrd
  set sd : ℝ := (N : ℝ) / 20 * 28 with hsd
  have hN1 : (N + 1).toNat = N.toNat + 1 := by omega
  have hNc : (N.toNat : ℝ) = N := by
    have : ((N.toNat : ℤ) : ℝ) = (N : ℝ) := by rw [Int.toNat_of_nonneg hn]
    exact_mod_cast this
  set S : ℝ := ((List.range (N.toNat + 1)).map (rawTap (N.toNat + 1) fr sd)).sum with hS
  have hSf : S = ∑ k ∈ Finset.range (N.toNat + 1), rawTap (N.toNat + 1) fr sd k := by rw [hS]; rfl
  have hpos : ∀ k ≤ N.toNat, 0 < rawTap (N.toNat + 1) fr sd k := by
    intro k hk
    unfold rawTap
    dsimp only
    have hkr : (k : ℝ) ≤ N := by rw [← hNc]; exact_mod_cast hk
    have hk0 : (0 : ℝ) ≤ k := by positivity
    refine mul_pos (mul_pos hfr.1 (sinc_pos ?_)) (Real.exp_pos _)
    rw [abs_lt]
    have hf' : fr * N = 1.6 := by
      rw [hfrd]; field_simp; norm_num
    push_cast
    rw [hNc]
    constructor <;> nlinarith [hfr.1]
  have hSpos : 0 < S := by
    rw [hSf]
    exact Finset.sum_pos (fun k hk => hpos k (by have := Finset.mem_range.mp hk; omega)) ⟨0, by simp⟩
  refine ⟨fun k => rawTap (N.toNat + 1) fr sd k / S, ?_, ?_, ?_, ?_, ?_⟩
  · dsimp only; omega
  · dsimp only; rw [hN1, List.map_map]; rfl
  · intro k hk
    dsimp only at hk ⊢
    have := rawTap_symm (N.toNat + 1) fr sd k (by omega)
    rw [Nat.add_sub_cancel] at this
    rw [this]
  · intro k hk; exact div_pos (hpos k hk) hSpos
  · dsimp only
    rw [← Finset.sum_div, ← hSf, div_self hSpos.ne']

end Csu.Kdp
