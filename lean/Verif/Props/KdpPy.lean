import Verif.Model.KdpPy
import Verif.Props.KdpLine
/-! # C91-C97: the pure-Python ray routine -/
namespace Csu.KdpPy
open Csu PyFloat Kdp KdpSpec

section generic
variable {α : Type} [PyFloat α]

/-- What a pass makes of gate `i`, as a function of the phase `z` at the start of the pass alone: nothing (`none`) near the
ends or with too few good gates in the window of `2 ⌊order/2⌋ + 1` gates; otherwise the filter sum over the window, where
gates that are not good are replaced by the line fitted to those that are. -/
def newPhase (ls : List (α × α) → Except PyErr (α × α)) (R : PRay α) (good : Nat → Bool) (z : Nat → α) (i : Nat) :
    Except PyErr (Option α) :=
  if R.order / 2 ≤ i ∧ i + R.order / 2 + 1 < R.n then
    let w := win (i - R.order / 2) (2 * (R.order / 2) + 1)
    let g := w.filter good
    if PyFloat.ofNat g.length >. (0.8 : α) * PyFloat.ofNat R.order then
      if g.length < R.order + 1 then do
        let ab ← ls (g.map (fun j => (R.rng j, z j)))
        if R.coef.length ≠ w.length then .error .valueError
        else .ok (some (R.gain * dot R.coef (w.map (fun j => if good j then z j else ab.1 * R.rng j + ab.2))))
      else if R.coef.length ≠ w.length then .error .valueError
      else .ok (some (R.gain * dot R.coef (w.map z)))
    else .ok none
  else .ok none

theorem gate_newPhase {ls : List (α × α) → Except PyErr (α × α)} {R : PRay α} {mask : Nat → Bool} {z : Nat → α}
    {yz : (Nat → α) × (Nat → α)} (hz : ∀ j, mask j = true → yz.2 j = z j) (i : Nat) :
    (∃ e, newPhase ls R mask z i = .error e ∧ gate ls R mask yz i = .error e) ∨
    ∃ o r, newPhase ls R mask z i = .ok o ∧ gate ls R mask yz i = .ok r ∧ (∀ j, mask j = true → r.2 j = z j) ∧
      (∀ j, j ≠ i → r.1 j = yz.1 j) ∧ r.1 i = o.getD (yz.1 i) := by
  unfold newPhase gate
  have hc : (R.half ≤ i ∧ (i : Int) + R.half < (R.n : Int) - 1) ↔ (R.order / 2 ≤ i ∧ i + R.order / 2 + 1 < R.n) := by
    unfold PRay.half; omega
  by_cases h1 : R.order / 2 ≤ i ∧ i + R.order / 2 + 1 < R.n
  swap
  · rw [if_neg h1, if_neg (by rw [hc]; exact h1)]
    exact .inr ⟨none, yz, rfl, rfl, hz, fun _ _ => rfl, rfl⟩
  rw [if_pos h1, if_pos (hc.mpr h1)]
  dsimp only
  unfold PRay.half
  set w := win (i - R.order / 2) (2 * (R.order / 2) + 1) with hw
  set g := w.filter mask with hg
  by_cases h2 : (PyFloat.ofNat g.length >. (0.8 : α) * PyFloat.ofNat R.order) = true
  swap
  · rw [if_neg h2, if_neg h2]
    exact .inr ⟨none, yz, rfl, rfl, hz, fun _ _ => rfl, rfl⟩
  rw [if_pos h2, if_pos h2]
  have hgz : g.map (fun j => (R.rng j, yz.2 j)) = g.map (fun j => (R.rng j, z j)) := by
    apply List.map_congr_left
    intro j hj
    rw [hz j (List.mem_filter.mp hj).2]
  have hwl : w.length = 2 * (R.order / 2) + 1 := by rw [hw]; simp [win]
  by_cases h3 : g.length < R.order + 1
  · rw [if_pos h3, if_pos h3, hgz]
    cases hab : ls (g.map (fun j => (R.rng j, z j))) with
    | error e => exact .inl ⟨e, rfl, rfl⟩
    | ok ab =>
      dsimp only [bind, Except.bind]
      by_cases h4 : R.coef.length ≠ w.length
      · rw [if_pos h4, if_pos h4]; exact .inl ⟨_, rfl, rfl⟩
      · rw [if_neg h4, if_neg h4]
        refine .inr ⟨_, _, rfl, rfl, fun j hj => ?_, fun j hj => by simp [hj], ?_⟩
        · simp only [fill, hj]; simp [hz j hj]
        · simp only [if_true, Option.getD_some]
          congr 2
          apply List.map_congr_left
          intro j hj
          simp only [fill, hj, true_and]
          cases hm : mask j
          · simp
          · simp [hz j hm]
  · rw [if_neg h3, if_neg h3]
    have hall : ∀ j ∈ w, mask j = true := by
      have hle : g.length ≤ w.length := List.length_filter_le _ _
      have heq : g.length = w.length := by omega
      intro j hj
      have : g = w := List.filter_eq_self.mpr (List.length_filter_eq_length_iff.mp heq)
      rw [← this] at hj
      exact (List.mem_filter.mp hj).2
    dsimp only [bind, Except.bind]
    by_cases h4 : R.coef.length ≠ w.length
    · rw [if_pos h4, if_pos h4]; exact .inl ⟨_, rfl, rfl⟩
    · rw [if_neg h4, if_neg h4]
      refine .inr ⟨_, _, rfl, rfl, fun j hj => hz j hj, fun j hj => by simp [hj], ?_⟩
      simp only [if_true, Option.getD_some]
      congr 2
      apply List.map_congr_left
      intro j hj
      exact hz j (hall j hj)

/-- Processing any list of good gates, in any order: each gate gets its `newPhase`. -/
theorem gates_newPhase {ls : List (α × α) → Except PyErr (α × α)} {R : PRay α} {mask : Nat → Bool} {z : Nat → α}
    (l : List Nat) (hn : l.Nodup) {yz r : (Nat → α) × (Nat → α)} (hz : ∀ j, mask j = true → yz.2 j = z j)
    (e : l.foldlM (gate ls R mask) yz = .ok r) (i : Nat) :
    (i ∈ l → ∃ o, newPhase ls R mask z i = .ok o ∧ r.1 i = o.getD (yz.1 i)) ∧ (i ∉ l → r.1 i = yz.1 i) := by
  induction l generalizing yz with
  | nil => cases e; simp
  | cons k l ih =>
    rw [List.foldlM_cons] at e
    obtain ⟨u, hu, e⟩ := bind_ok e
    have hn := List.nodup_cons.mp hn
    rcases gate_newPhase hz k with ⟨x, -, h⟩ | ⟨o, v, ho, hv, hz', hy, hk⟩
    · rw [hu] at h; cases h
    · rw [hu] at hv; cases hv
      have h := ih hn.2 hz' e
      refine ⟨fun hi => ?_, fun hi => ?_⟩
      · rcases List.mem_cons.mp hi with rfl | hi'
        · exact ⟨o, ho, by rw [h.2 hn.1, hk]⟩
        · obtain ⟨o', ho', hr⟩ := h.1 hi'
          have : i ≠ k := fun hc => hn.1 (hc ▸ hi')
          exact ⟨o', ho', by rw [hr, hy i this]⟩
      · rw [h.2 fun hc => hi (by simp [hc]), hy i (by rintro rfl; exact hi (by simp))]

/-- **C92.** In one pass of the pure-Python filter every gate is treated on its own: the result at a good gate depends only
on the phase at the start of the pass (no gap filled for one gate is seen by another), and gates that are not good, near the
ends, or with too few good neighbours keep their value from the previous pass (initially bad). -/
theorem C92_gates_independent (ls : List (α × α) → Except PyErr (α × α)) (R : PRay α) (sd : Nat → α)
    (yz r : (Nat → α) × (Nat → α)) (e : pass ls R sd yz = .ok r) (i : Nat) (hi : i < R.n) :
    r.2 = r.1 ∧
    ((sd i <=. R.thsd i && (yz.2 i !=. R.bad)) = false → r.1 i = yz.1 i) ∧
    ((sd i <=. R.thsd i && (yz.2 i !=. R.bad)) = true →
      ∃ o, newPhase ls R (fun j => (sd j <=. R.thsd j) && (yz.2 j !=. R.bad)) yz.2 i = .ok o ∧ r.1 i = o.getD (yz.1 i)) := by
  unfold pass at e
  obtain ⟨u, hu, e⟩ := bind_ok e
  cases e
  have h := gates_newPhase (z := yz.2) _ (List.nodup_range.filter _) (fun _ _ => rfl) hu i
  refine ⟨rfl, fun hb => h.2 fun hc => ?_, fun hg => h.1 ?_⟩
  · have := (List.mem_filter.mp hc).2
    unfold passMask at this
    rw [hb] at this; cases this
  · exact List.mem_filter.mpr ⟨List.mem_range.mpr hi, hg⟩

/-- The order in which the gates are processed does not matter. -/
theorem C92_any_order (ls : List (α × α) → Except PyErr (α × α)) (R : PRay α) (mask : Nat → Bool) (yz r r' : (Nat → α) × (Nat → α))
    (l l' : List Nat) (hn : l.Nodup) (hp : l.Perm l') (e : l.foldlM (gate ls R mask) yz = .ok r)
    (e' : l'.foldlM (gate ls R mask) yz = .ok r') : r.1 = r'.1 := by
  funext i
  have h := gates_newPhase (z := yz.2) l hn (fun _ _ => rfl) e i
  have h' := gates_newPhase (z := yz.2) l' (hp.nodup_iff.mp hn) (fun _ _ => rfl) e' i
  by_cases hi : i ∈ l
  · obtain ⟨o, h1, h2⟩ := h.1 hi
    obtain ⟨o', h3, h4⟩ := h'.1 (hp.mem_iff.mp hi)
    rw [h1] at h3; cases h3
    rw [h2, h4]
  · rw [h.2 hi, h'.2 fun hc => hi (hp.mem_iff.mpr hc)]

/-- **C95.** If `numpy.linalg.lstsq` never raises and the filter has as many coefficients as the window has gates (which
`get_fir` guarantees), the routine returns for every ray, and its three results have one value per gate. -/
theorem C95_returns (ls : List (α × α) → Except PyErr (α × α)) (hls : ∀ p, Returns (ls p)) (R : PRay α)
    (hc : R.coef.length = 2 * (R.order / 2) + 1) :
    ∃ out, calcKdpRay ls R = .ok out ∧ out.kd.length = R.n ∧ out.dp.length = R.n ∧ out.sd.length = R.n := by
  have hg : ∀ mask yz i, Returns (gate ls R mask yz i) := by
    intro mask yz i
    unfold gate
    split
    · dsimp only
      split
      · refine Returns.bind ?_ fun z _ => ?_
        · split
          · exact (hls _).bind fun ab _ => .ok _
          · exact .ok _
        · rw [if_neg (by simp [win, hc, PRay.half])]; exact .ok _
      · exact .ok _
    · exact .ok _
  have hp : ∀ k yz, Returns (passes ls R (sdAt R) k yz) := by
    intro k
    induction k with
    | zero => intro yz; exact .ok _
    | succ k ih =>
      intro yz
      unfold passes pass
      exact ((Returns.foldlM fun s x _ => hg _ s x).bind fun r _ => .ok _).bind fun u _ => ih u
  have hk : ∀ z i, Returns (kdAt ls R z i) := by
    intro z i
    unfold kdAt
    dsimp only
    split
    · split
      · split
        · exact (hls _).bind fun ab _ => .ok _
        · exact .ok _
      · exact .ok _
    · exact .ok _
  obtain ⟨yz, h1⟩ := hp R.nf (fun _ => R.bad, R.dp)
  obtain ⟨kd, h2⟩ := Returns.mapM (f := kdAt ls R yz.2) (l := List.range R.n) fun i _ => hk _ i
  refine ⟨⟨kd, (List.range R.n).map yz.2, (List.range R.n).map (sdAt R)⟩, ?_, ?_, by simp, by simp⟩
  · unfold calcKdpRay
    rw [h1]
    show (List.mapM (kdAt ls R yz.2) (List.range R.n) >>= fun kd => _) = _
    rw [h2]; rfl
  · have := (mapM_get h2).1
    simpa using this

/-- components of a result -/
theorem run {ls : List (α × α) → Except PyErr (α × α)} {R : PRay α} {out : RayOut α} (e : calcKdpRay ls R = .ok out) :
    ∃ yz, passes ls R (sdAt R) R.nf (fun _ => R.bad, R.dp) = .ok yz ∧
      (∀ i < R.n, out.dp[i]? = some (yz.2 i)) ∧ (∀ i < R.n, out.sd[i]? = some (sdAt R i)) ∧
      (∀ i < R.n, ∃ k, out.kd[i]? = some k ∧ kdAt ls R yz.2 i = .ok k) := by
  unfold calcKdpRay at e
  obtain ⟨yz, h1, e⟩ := bind_ok e
  obtain ⟨kd, h2, e⟩ := bind_ok e
  cases e
  refine ⟨yz, h1, fun i hi => by simp [hi], fun i hi => by simp [hi], fun i hi => ?_⟩
  have hl := (mapM_get h2).1
  rw [List.length_range] at hl
  have hik : i < kd.length := by omega
  refine ⟨kd[i], List.getElem?_eq_getElem hik, ?_⟩
  have := (mapM_get h2).2 i (by simpa using hi) hik
  simpa using this

end generic
/-! ## Numbers -/

/-- What is assumed of `numpy.linalg.lstsq`: real points with two different abscissae give their least-squares line. -/
def IsLstsq (ls : List (XR × XR) → Except PyErr (XR × XR)) : Prop :=
  ∀ pts : List (ℝ × ℝ), TwoAbscissae pts → ∃ a b : ℝ, ls (pts.map lift) = .ok (.fin a, .fin b) ∧ IsLeastSquares pts a b

/-- such a function exists: the closed formula of the compiled kernels, without skipping -/
noncomputable def closedForm (pts : List (XR × XR)) : Except PyErr (XR × XR) :=
  lse { coefOff := 0, winEnd := 0, skip := fun _ _ => false, raises := false, single := false } .nan pts

theorem closedForm_isLstsq : IsLstsq closedForm := by
  intro pts h
  have hk : kept { coefOff := 0, winEnd := 0, skip := fun _ _ => false, raises := false, single := false } .nan pts = pts := by
    unfold kept; rw [List.filter_eq_self]; intro p _; rfl
  refine ⟨slopeR pts, interR pts, ?_, least_squares pts h⟩
  unfold closedForm
  rw [lse_val _ _ pts (by rw [hk]; exact (detR_ne_zero_iff pts).mpr h), hk]

theorem closedForm_returns (p : List (XR × XR)) : Returns (closedForm p) := by
  unfold closedForm lse
  simp only [Bool.false_and, Bool.false_eq_true, if_false]; exact .ok _

theorem lstsq_line {ls : List (XR × XR) → Except PyErr (XR × XR)} (hls : IsLstsq ls) (pts : List (ℝ × ℝ)) (h : TwoAbscissae pts)
    (a b : ℝ) (hl : ∀ p ∈ pts, p.2 = a * p.1 + b) : ls (pts.map lift) = .ok (.fin a, .fin b) := by
  obtain ⟨a', b', h1, h2⟩ := hls pts h
  have h3 := h2 (slopeR pts) (interR pts)
  have h4 := least_squares pts h a' b'
  have h5 := h4.2 (le_antisymm h3.1 h4.1)
  have h6 := slope_of_line pts h a b hl
  rw [h1, h5.1, h5.2, h6.1, h6.2]

theorem psum_fin (xs : List ℝ) : psum (xs.map XR.fin) = .fin xs.sum := by
  unfold psum
  have h00 : (0.0 : XR) = .fin 0 := by rw [XR.fsci]; norm_num
  rw [List.foldl_map, h00]
  have := foldl_fin xs id 0
  simpa using this

theorem dot_self_fin (xs : List ℝ) : dot (xs.map XR.fin) (xs.map XR.fin) = .fin (xs.map (fun x => x * x)).sum := by
  unfold dot
  have h00 : (0.0 : XR) = .fin 0 := by rw [XR.fsci]; norm_num
  rw [List.zip_map', List.foldl_map, h00]
  simp only [XR.fmul]
  rw [foldl_fin xs (fun x => x * x) 0, zero_add]

theorem quickStd_fin (xs : List ℝ) (h : xs ≠ []) : quickStd (xs.map XR.fin) = .fin (popStd xs) := by
  have hl : (xs.length : ℝ) ≠ 0 := by
    have := List.length_pos_iff.mpr h
    positivity
  unfold quickStd
  dsimp only
  rw [psum_fin, List.length_map]
  simp only [XR.fofNat]
  rw [XR.fdiv hl]
  have : (xs.map XR.fin).map (fun x => x - XR.fin (xs.sum / xs.length)) = (xs.map (fun x => x - xs.sum / xs.length)).map XR.fin := by
    rw [List.map_map, List.map_map]; apply List.map_congr_left; intro x _; simp
  rw [this, dot_self_fin, XR.fdiv hl, XR.fsci]
  have hsq : ∀ x ∈ (xs.map (fun x => x - xs.sum / xs.length)).map (fun x => x * x), (0 : ℝ) ≤ x := by
    intro x hx
    obtain ⟨y, -, rfl⟩ := List.mem_map.mp hx
    exact mul_self_nonneg y
  rw [XR.fpow_nonneg (div_nonneg (List.sum_nonneg hsq) (by positivity)) (by norm_num)]
  unfold popStd
  rw [Real.sqrt_eq_rpow, List.map_map]
  congr 2
  · congr 3
    funext x
    simp only [Function.comp]; ring
  · norm_num

/-- the phases among the ten gates `i - 5, ..., i + 4` that are not bad -/
noncomputable def goodTen (R : PRay XR) (i : Nat) : List XR :=
  ((List.range 10).map (fun k => R.dp (i - 5 + k))).filter (fun x => x !=. R.bad)

theorem goodTen_eq (R : PRay XR) (i : Nat) : ((win (i - 5) 10).map R.dp).filter (fun x => x !=. R.bad) = goodTen R i := by
  unfold goodTen win
  rw [List.map_map]; rfl

/-- **C91, what holds**: the standard deviation is that of the good phases among the TEN gates `i - 5, ..., i + 4`, if gate `i`
is good, has 5 gates before and 6 after it, and more than five of the ten are good; otherwise 100. -/
theorem C91_ten_gates_partial (ls : List (XR × XR) → Except PyErr (XR × XR)) (R : PRay XR) (out : RayOut XR)
    (e : calcKdpRay ls R = .ok out) (i : Nat) (hi : i < R.n) :
    (((R.dp i !=. R.bad) = false ∨ i < 5 ∨ R.n ≤ i + 6 ∨ (goodTen R i).length ≤ 5) → out.sd[i]? = some (.fin 100)) ∧
    (∀ xs : List ℝ, (R.dp i !=. R.bad) = true → 5 ≤ i → i + 6 < R.n → 5 < xs.length → goodTen R i = xs.map .fin →
      out.sd[i]? = some (.fin (popStd xs))) := by
  obtain ⟨yz, -, -, hsd, -⟩ := run e
  rw [hsd i hi]
  have h100 : (100.0 : XR) = .fin 100 := by rw [XR.fsci]; norm_num
  unfold sdAt
  dsimp only
  rw [goodTen_eq, h100]
  refine ⟨fun h => ?_, fun xs hb h5 h6 hl hg => ?_⟩
  · split
    · rename_i hc
      simp only [Bool.and_eq_true, decide_eq_true_eq] at hc
      rcases h with h | h | h | h
      · rw [h] at hc; cases hc.1
      · omega
      · omega
      · rw [if_neg (by omega)]
    · rfl
  · rw [if_pos (by rw [hb]; simp only [Bool.true_and, decide_eq_true_eq]; omega), hg, List.length_map, if_pos hl,
      quickStd_fin xs (by rintro rfl; simp at hl)]

/-- C91, full statement (the comment in the code: "fixed @ 11 gates", as in the compiled kernels): the standard deviation is
taken over the eleven gates centred on the gate. -/
def C91Full : Prop := ∀ (ls : List (XR × XR) → Except PyErr (XR × XR)) (R : PRay XR) (out : RayOut XR) (i : Nat) (xs : List ℝ),
  calcKdpRay ls R = .ok out → 5 ≤ i → i + 6 < R.n →
  (List.range 11).map (fun k => R.dp (i - 5 + k)) = xs.map .fin → (∀ x ∈ xs, (XR.fin x !=. R.bad) = true) →
  out.sd[i]? = some (.fin (popStd xs))

/-- twelve gates of phase 0, except 11 at gate 10 -/
noncomputable def tenRay : PRay XR :=
  { n := 12, dp := fun j => if j = 10 then .fin 11 else .fin 0, dz := fun _ => .fin 40, rng := fun j => .fin j, thsd := fun _ => .fin 12,
    nf := 0, bad := .fin (-32768), order := 2, gain := .fin 1, coef := [.fin 0, .fin 1, .fin 0], castNan := 0 }

/-- **C91 is false**: the eleventh gate is left out. -/
theorem C91_full_false : ¬ C91Full := by
  intro h
  obtain ⟨out, e, -⟩ := C95_returns closedForm closedForm_returns tenRay rfl
  have hr : List.range 11 = [0, 1, 2, 3, 4, 5, 6, 7, 8, 9, 10] := by decide
  have hr' : List.range 10 = [0, 1, 2, 3, 4, 5, 6, 7, 8, 9] := by decide
  have h1 := h closedForm tenRay out 5 [0, 0, 0, 0, 0, 0, 0, 0, 0, 0, 11] e (by decide) (by decide) (by
    rw [hr]; simp [tenRay]) (by
    intro x hx
    simp at hx
    show (XR.fin x !=. XR.fin (-32768)) = true
    rcases hx with rfl | rfl <;> simp [PyFloat.ne] <;> norm_num)
  have hbad : (XR.fin 0 !=. XR.fin (-32768)) = true := by simp [PyFloat.ne]
  have h2 := (C91_ten_gates_partial closedForm tenRay out e 5 (by decide)).2 [0, 0, 0, 0, 0, 0, 0, 0, 0, 0] (by
    show (XR.fin 0 !=. XR.fin (-32768)) = true
    exact hbad) (by decide) (by decide) (by decide) (by
    unfold goodTen
    rw [hr']
    simp [tenRay, List.filter, PyFloat.ne])
  rw [h1] at h2
  have := XR.fin.inj (Option.some.inj h2)
  unfold popStd at this
  norm_num at this

/-! ## KDP -/

/-- the good samples (range, filtered phase) among the gates from `lo` to before `hi` -/
noncomputable def samples (R : PRay XR) (out : RayOut XR) (lo hi : Nat) : List (XR × XR) :=
  ((List.range (hi - lo)).filter (fun k => (out.dp.getD (lo + k) .nan) !=. R.bad)).map
    (fun k => (R.rng (lo + k), out.dp.getD (lo + k) .nan))

theorem nadp_width (R : PRay XR) (i : Nat) (z : ℝ) (hz : R.dz i = .fin z) : nadp R i = adaptiveWidth R.order z := by
  have h45 : (45.0 : XR) = .fin 45 := by rw [XR.fsci]; norm_num
  have h35 : (35.0 : XR) = .fin 35 := by rw [XR.fsci]; norm_num
  unfold nadp adaptiveWidth
  dsimp only
  rw [hz, h45, h35]
  have hnan : isnan ((0 : XR) * XR.fin z + PyFloat.ofNat R.half) = false := by
    rw [XR.fzero, XR.fofNat]; simp [isnan]
  rw [hnan]
  simp only [XR.fge, XR.flt, PRay.half]
  by_cases h1 : 45 ≤ z
  · have h2 : ¬ z < 45 := by linarith
    have h3 : ¬ z < 35 := by linarith
    simp [h1, h2, h3]
  · by_cases h2 : 35 ≤ z
    · have h3 : z < 45 := by linarith
      simp [h1, h2, h3]
    · have h3 : z < 35 := by linarith
      simp [h1, h2, h3]

theorem indices {R : PRay XR} {i w : Nat} (h : nadp R i = w) :
    ((0 ≤ (nadpIndices R i).1 ∧ (nadpIndices R i).2 ≤ (R.n : Int)) ↔ (w ≤ 2 * i + 1 ∧ i + w / 2 + 1 ≤ R.n)) ∧
    (w ≤ 2 * i + 1 → (nadpIndices R i).1.toNat = i - (w + 1) / 2 ∧
      ((nadpIndices R i).2 - (nadpIndices R i).1).toNat = (i + w / 2 + 1) - (i - (w + 1) / 2)) := by
  unfold nadpIndices
  rw [h]
  dsimp only
  have h2 : Int.tdiv (2 * (i : Int) + (w : Int) + 2) 2 = (i : Int) + ((w / 2 : Nat) : Int) + 1 := by
    rw [Int.tdiv_eq_ediv_of_nonneg (by omega)]; omega
  rw [h2]
  by_cases hw : w ≤ 2 * i
  · have h1 : Int.tdiv (2 * (i : Int) - (w : Int)) 2 = (i : Int) - (((w + 1) / 2 : Nat) : Int) := by
      rw [Int.tdiv_eq_ediv_of_nonneg (by omega)]; omega
    rw [h1]
    constructor
    · omega
    · intro _; omega
  · by_cases hw1 : w = 2 * i + 1
    · have h1 : Int.tdiv (2 * (i : Int) - (w : Int)) 2 = 0 := by
        subst hw1
        have : 2 * (i : Int) - ((2 * i + 1 : Nat) : Int) = -1 := by push_cast; ring
        rw [this]; rfl
      rw [h1]
      constructor
      · omega
      · intro _; omega
    · have h1 : Int.tdiv (2 * (i : Int) - (w : Int)) 2 < 0 := by
        have : 2 * (i : Int) - (w : Int) = -(((w - 2 * i : Nat)) : Int) := by omega
        rw [this, Int.neg_tdiv, Int.tdiv_eq_ediv_of_nonneg (by omega)]
        omega
      constructor
      · omega
      · omega

/-- **C93.** KDP of the pure-Python routine.  Let gate `i` have real reflectivity `z`, `w` the documented width for `z`.
1. If the filtered phase of the gate is bad, or the gate has fewer than `⌊w/2⌋` gates on either side, KDP is bad.
2. If fewer than `0.8 w` of the gates from `i - ⌈w/2⌉` (or 0) to `i + ⌊w/2⌋` are good, KDP is bad.
3. Otherwise, if their samples are real with two different ranges, KDP is half the slope of their least-squares line. -/
theorem C93_window_slope (ls : List (XR × XR) → Except PyErr (XR × XR)) (hls : IsLstsq ls) (R : PRay XR) (out : RayOut XR)
    (e : calcKdpRay ls R = .ok out) (i : Nat) (hi : i < R.n) (z : ℝ) (hz : R.dz i = .fin z) (w : Nat)
    (hw : w = adaptiveWidth R.order z) :
    ((out.dp.getD i .nan ==. R.bad) = true → out.kd[i]? = some R.bad) ∧
    ((i < w / 2 ∨ R.n ≤ i + w / 2) → out.kd[i]? = some R.bad) ∧
    (w / 2 ≤ i → i + w / 2 < R.n →
      (((samples R out (i - (w + 1) / 2) (i + w / 2 + 1)).length : ℝ) < 0.8 * w → out.kd[i]? = some R.bad) ∧
      (∀ pts : List (ℝ × ℝ), (out.dp.getD i .nan ==. R.bad) = false →
        samples R out (i - (w + 1) / 2) (i + w / 2 + 1) = pts.map lift → 0.8 * w ≤ (pts.length : ℝ) →
        TwoAbscissae pts → ∃ a b : ℝ, IsLeastSquares pts a b ∧ out.kd[i]? = some (.fin (0.5 * a)))) := by
  obtain ⟨yz, -, hdp, -, hkd⟩ := run e
  obtain ⟨k, hk, hg⟩ := hkd i hi
  rw [hk]
  have hget : ∀ j < R.n, out.dp.getD j .nan = yz.2 j := by
    intro j hj; rw [List.getD_eq_getElem?_getD, hdp j hj]; rfl
  rw [hget i hi]
  have hn := nadp_width R i z hz
  rw [← hw] at hn
  obtain ⟨hix, hsl⟩ := indices hn
  unfold kdAt at hg
  dsimp only at hg
  rw [hn] at hg
  have h08 : ∀ n : Nat, (PyFloat.ofNat n >=. (0.8 : XR) * PyFloat.ofNat w) = decide ((0.8 : ℝ) * w ≤ n) := by
    intro n
    simp only [XR.fofNat, XR.fsci, XR.fmul, XR.fge]
  by_cases hb : (yz.2 i ==. R.bad) = true
  · rw [if_neg (by simp [PyFloat.ne, hb])] at hg
    have : k = R.bad := (Except.ok.inj hg).symm
    subst this
    exact ⟨fun _ => rfl, fun _ => rfl, fun _ _ => ⟨fun _ => rfl, fun pts h => by rw [hb] at h; cases h⟩⟩
  rw [if_pos (by simp [PyFloat.ne, hb])] at hg
  refine ⟨fun h => absurd h hb, fun h => ?_, fun h1 h2 => ?_⟩
  · rw [if_neg (by rw [hix]; omega)] at hg
    rw [Except.ok.inj hg]
  · rw [if_pos (by rw [hix]; omega), (hsl (by omega)).1, (hsl (by omega)).2] at hg
    have hsam : ((win (i - (w + 1) / 2) ((i + w / 2 + 1) - (i - (w + 1) / 2))).filter (fun j => yz.2 j !=. R.bad)).map
        (fun j => (R.rng j, yz.2 j)) = samples R out (i - (w + 1) / 2) (i + w / 2 + 1) := by
      unfold win samples
      rw [List.filter_map, List.map_map]
      have : (List.range ((i + w / 2 + 1) - (i - (w + 1) / 2))).filter ((fun j => yz.2 j !=. R.bad) ∘ fun x => i - (w + 1) / 2 + x) =
          (List.range ((i + w / 2 + 1) - (i - (w + 1) / 2))).filter (fun k => (out.dp.getD (i - (w + 1) / 2 + k) .nan) !=. R.bad) := by
        apply List.filter_congr
        intro k hk'
        have := List.mem_range.mp hk'
        simp only [Function.comp]
        rw [hget _ (by omega)]
      rw [this]
      apply List.map_congr_left
      intro k hk'
      have := List.mem_range.mp (List.mem_of_mem_filter hk')
      simp only [Function.comp]
      rw [hget _ (by omega)]
    have hlen : ((win (i - (w + 1) / 2) ((i + w / 2 + 1) - (i - (w + 1) / 2))).filter (fun j => yz.2 j !=. R.bad)).length =
        (samples R out (i - (w + 1) / 2) (i + w / 2 + 1)).length := by rw [← hsam]; simp
    rw [hsam, hlen, h08] at hg
    refine ⟨fun hfew => ?_, fun pts _ hp hmany htwo => ?_⟩
    · rw [if_neg (by simp only [decide_eq_true_eq]; linarith)] at hg
      rw [Except.ok.inj hg]
    · rw [hp, List.length_map, if_pos (by simpa using hmany)] at hg
      obtain ⟨a, b, h3, h4⟩ := hls pts htwo
      rw [h3] at hg
      refine ⟨a, b, h4, ?_⟩
      have : (0.5 : XR) * XR.fin a = k := Except.ok.inj hg
      rw [← this, XR.fsci, XR.fmul]

/-! ## Linear phase -/

/-- every gate is on the line or bad -/
def OnLineP (R : PRay XR) (S : Spacing) (L : Line) (z : Nat → XR) : Prop :=
  ∀ j : Nat, j < R.n → z j = .fin (L.at S j) ∨ z j = R.bad

/-- equally spaced ranges and a symmetric filter with unit sum -/
structure Setup (R : PRay XR) (S : Spacing) (c : Nat → ℝ) : Prop where
  even : R.order % 2 = 0
  gain : R.gain = .fin 1
  bad : ∃ β : ℝ, R.bad = .fin β
  step : S.s ≠ 0
  rng : ∀ j : Nat, j < R.n → R.rng j = .fin (S.at j)
  coef : R.coef = (List.range (R.order + 1)).map (fun k => .fin (c k))
  sum : ∑ k ∈ Finset.range (R.order + 1), c k = 1
  symm : ∀ k ≤ R.order, c k = c (R.order - k)

theorem ne_bad {R : PRay XR} (h : ∃ β : ℝ, R.bad = .fin β) (x : XR) : (x !=. R.bad) = true ↔ x ≠ R.bad := by
  obtain ⟨β, h⟩ := h; rw [h]
  cases x with
  | nan => simp [PyFloat.ne]
  | ninf => simp only [PyFloat.ne]; exact ⟨fun _ h => (by cases h), fun _ => rfl⟩
  | pinf => simp only [PyFloat.ne]; exact ⟨fun _ h => (by cases h), fun _ => rfl⟩
  | fin y => simp [PyFloat.ne]

/-- the filter sum over a window on the line -/
theorem dot_line {R : PRay XR} {S : Spacing} {c : Nat → ℝ} (h : Setup R S c) (L : Line) (i : Nat) (hi : R.order / 2 ≤ i)
    (vals : List XR) (hv : vals = (List.range (R.order + 1)).map (fun k => .fin (L.at S (i - R.order / 2 + k : Nat)))) :
    R.gain * dot R.coef vals = .fin (L.at S i) := by
  subst hv
  unfold dot
  rw [h.gain, h.coef, List.zip_map', List.foldl_map, fir_fin, XR.fmul]
  congr 1
  rw [one_mul]
  have hm := moment_zero _ h.even c h.symm
  have : ∀ k : Nat, c k * L.at S ((i - R.order / 2 + k : Nat) : Int) =
      c k * L.at S i + L.a * S.s * (c k * ((k : ℝ) - (R.order / 2 : Nat))) := by
    intro k
    have hc : (((i - R.order / 2 + k : Nat) : Int) : ℝ) = (i : ℝ) - ((R.order / 2 : Nat) : ℝ) + k := by
      rw [Int.cast_natCast, Nat.cast_add, Nat.cast_sub hi]
    simp only [Line.at, Spacing.at, hc]
    push_cast
    ring
  simp only [this]
  rw [Finset.sum_add_distrib, ← Finset.sum_mul, ← Finset.mul_sum, h.sum, hm]
  ring

/-- what a pass makes of a gate when the phase is on a line or bad -/
theorem newPhase_line {ls : List (XR × XR) → Except PyErr (XR × XR)} (hls : IsLstsq ls) {R : PRay XR} {S : Spacing} {c : Nat → ℝ}
    (h : Setup R S c) {L : Line} {z : Nat → XR} (hz : OnLineP R S L z) {good : Nat → Bool}
    (hg : ∀ j, good j = true → z j ≠ R.bad) {i : Nat} {v : XR} (e : newPhase ls R good z i = .ok (some v)) :
    v = .fin (L.at S i) := by
  unfold newPhase at e
  split at e
  swap
  · cases e
  rename_i hi
  dsimp only at e
  have heven := h.even
  have hww : ∀ j ∈ win (i - R.order / 2) (2 * (R.order / 2) + 1), j < R.n := by
    intro j hj
    obtain ⟨k, hk, rfl⟩ := List.mem_map.mp hj
    have := List.mem_range.mp hk
    omega
  have hline : ∀ j ∈ win (i - R.order / 2) (2 * (R.order / 2) + 1), good j = true → z j = .fin (L.at S j) := by
    intro j hj hgj
    rcases hz j (hww j hj) with h1 | h1
    · exact h1
    · exact absurd h1 (hg j hgj)
  have hwin : ∀ f : Nat → XR, (∀ j ∈ win (i - R.order / 2) (2 * (R.order / 2) + 1), f j = .fin (L.at S j)) →
      (win (i - R.order / 2) (2 * (R.order / 2) + 1)).map f =
        (List.range (R.order + 1)).map (fun k => .fin (L.at S (i - R.order / 2 + k : Nat))) := by
    intro f hf
    rw [List.map_congr_left hf]
    unfold win
    rw [List.map_map, show 2 * (R.order / 2) + 1 = R.order + 1 by omega]; rfl
  split at e
  swap
  · cases e
  rename_i hmany
  split at e
  · rename_i hlt
    obtain ⟨ab, hab, e⟩ := bind_ok e
    have hl2 : 2 ≤ ((win (i - R.order / 2) (2 * (R.order / 2) + 1)).filter good).length := by
      simp only [XR.fofNat, XR.fsci, XR.fmul, XR.fgt, decide_eq_true_eq] at hmany
      have ho : 2 ≤ R.order := by
        by_contra hc'
        have ho : R.order = 0 := by omega
        have : ((win (i - R.order / 2) (2 * (R.order / 2) + 1)).filter good).length = 0 := by omega
        rw [this, ho] at hmany; norm_num at hmany
      have ho' : (2 : ℝ) ≤ R.order := by exact_mod_cast ho
      by_contra hc'
      have : ((win (i - R.order / 2) (2 * (R.order / 2) + 1)).filter good).length ≤ 1 := by omega
      have : (((win (i - R.order / 2) (2 * (R.order / 2) + 1)).filter good).length : ℝ) ≤ 1 := by exact_mod_cast this
      norm_num at hmany; linarith
    set g := (win (i - R.order / 2) (2 * (R.order / 2) + 1)).filter good with hgd
    have hgm : ∀ j ∈ g, j ∈ win (i - R.order / 2) (2 * (R.order / 2) + 1) ∧ good j = true := fun j hj => List.mem_filter.mp hj
    have hpts : g.map (fun j => (R.rng j, z j)) = (g.map (fun (j : Nat) => (S.at j, L.at S j))).map lift := by
      rw [List.map_map]
      apply List.map_congr_left
      intro j hj
      have := hgm j hj
      simp only [Function.comp, lift, h.rng j (hww j this.1), hline j this.1 this.2]
    have hnd : g.Nodup := by
      refine List.Nodup.filter _ ?_
      unfold win
      exact List.nodup_range.map (fun a b hab => by simpa using hab)
    have htwo : TwoAbscissae (g.map (fun (j : Nat) => (S.at j, L.at S j))) := by
      obtain ⟨a, b, l, hab⟩ : ∃ a b l, g = a :: b :: l := by
        match hm : g, hl2 with
        | a :: b :: l, _ => exact ⟨a, b, l, rfl⟩
      rw [hab] at hnd ⊢
      have hne : a ≠ b := by
        have := List.nodup_cons.mp hnd
        intro hc'; apply this.1; simp [hc']
      refine ⟨_, List.mem_map.mpr ⟨a, by simp, rfl⟩, _, List.mem_map.mpr ⟨b, by simp, rfl⟩, ?_⟩
      intro hc'
      have : S.s * (a : ℝ) = S.s * b := by simpa [Spacing.at] using hc'
      exact hne (by exact_mod_cast mul_left_cancel₀ h.step this)
    rw [hpts, lstsq_line hls _ htwo L.a L.b (fun p hp => by
      obtain ⟨j, _, rfl⟩ := List.mem_map.mp hp; rfl)] at hab
    cases hab
    split at e
    · cases e
    rw [← Option.some.inj (Except.ok.inj e)]
    refine dot_line h L i hi.1 _ (hwin _ fun j hj => ?_)
    cases hgj : good j
    · simp [h.rng j (hww j hj), Line.at]
    · simp [hline j hj hgj]
  · rename_i hlt
    split at e
    · cases e
    rw [← Option.some.inj (Except.ok.inj e)]
    refine dot_line h L i hi.1 _ (hwin _ fun j hj => hline j hj ?_)
    have hwl : (win (i - R.order / 2) (2 * (R.order / 2) + 1)).length = R.order + 1 := by simp [win]; omega
    have hle : ((win (i - R.order / 2) (2 * (R.order / 2) + 1)).filter good).length ≤
        (win (i - R.order / 2) (2 * (R.order / 2) + 1)).length := List.length_filter_le _ _
    exact List.length_filter_eq_length_iff.mp (by omega) j hj

/-- one pass on a line -/
theorem pass_line {ls : List (XR × XR) → Except PyErr (XR × XR)} (hls : IsLstsq ls) {R : PRay XR} {S : Spacing} {c : Nat → ℝ}
    (h : Setup R S c) {L : Line} {sd : Nat → XR} {yz r : (Nat → XR) × (Nat → XR)} (hz : OnLineP R S L yz.2) (e : pass ls R sd yz = .ok r) :
    r.2 = r.1 ∧ ∀ i, i < R.n → r.1 i = .fin (L.at S i) ∨ r.1 i = yz.1 i := by
  refine ⟨?_, fun i hi => ?_⟩
  · unfold pass at e
    obtain ⟨u, hu, e⟩ := bind_ok e
    cases e; rfl
  · obtain ⟨-, h1, h2⟩ := C92_gates_independent ls R sd yz r e i hi
    cases hg : (sd i <=. R.thsd i && (yz.2 i !=. R.bad))
    · exact .inr (h1 hg)
    · obtain ⟨o, ho, hr⟩ := h2 hg
      cases o with
      | none => exact .inr hr
      | some v =>
        left
        rw [hr]
        refine newPhase_line hls h hz (fun j hj => ?_) ho
        rw [Bool.and_eq_true] at hj
        exact (ne_bad h.bad _).mp hj.2

/-- several passes on a line: stay on the line, and gates that reached it stay there -/
theorem passes_line {ls : List (XR × XR) → Except PyErr (XR × XR)} (hls : IsLstsq ls) {R : PRay XR} {S : Spacing} {c : Nat → ℝ}
    (h : Setup R S c) {L : Line} {sd : Nat → XR} (k : Nat) {yz r : (Nat → XR) × (Nat → XR)} (hy : OnLineP R S L yz.1)
    (hz : OnLineP R S L yz.2) (e : passes ls R sd k yz = .ok r) :
    OnLineP R S L r.2 ∧ (yz.2 = yz.1 → ∀ i, i < R.n → yz.2 i = .fin (L.at S i) → r.2 i = .fin (L.at S i)) := by
  induction k generalizing yz with
  | zero => cases e; exact ⟨hz, fun _ _ _ h => h⟩
  | succ k ih =>
    unfold passes at e
    obtain ⟨u, hu, e⟩ := bind_ok e
    have hp := pass_line hls h hz hu
    have h1 : OnLineP R S L u.1 := by
      intro j hj
      rcases hp.2 j hj with h2 | h2
      · exact .inl h2
      · rw [h2]; exact hy j hj
    have h3 := ih h1 (hp.1 ▸ h1) e
    refine ⟨h3.1, fun hyz i hi hl => h3.2 hp.1 i hi ?_⟩
    rw [hp.1]
    rcases hp.2 i hi with h2 | h2
    · exact h2
    · rw [h2, ← hyz]; exact hl

/-- the least-squares line of points on a line is that line -/
theorem slope_unique {pts : List (ℝ × ℝ)} (h : TwoAbscissae pts) {a b : ℝ} (hls : IsLeastSquares pts a b) (A B : ℝ)
    (hl : ∀ p ∈ pts, p.2 = A * p.1 + B) : a = A := by
  have h4 := hls (slopeR pts) (interR pts)
  have h5 := least_squares pts h a b
  rw [(h5.2 (le_antisymm h4.1 h5.1)).1, (slope_of_line pts h A B hl).1]

/-- KDP at a gate with enough good samples, when the filtered phase is on a line or bad -/
theorem kd_line {ls : List (XR × XR) → Except PyErr (XR × XR)} (hls : IsLstsq ls) {R : PRay XR} {S : Spacing} {c : Nat → ℝ}
    (h : Setup R S c) {L : Line} {out : RayOut XR} (e : calcKdpRay ls R = .ok out)
    (hdp : ∀ j : Nat, j < R.n → out.dp.getD j .nan = .fin (L.at S j) ∨ out.dp.getD j .nan = R.bad) (i : Nat) (hi : i < R.n)
    (z : ℝ) (hz : R.dz i = .fin z) (w : Nat) (hw : w = adaptiveWidth R.order z) (hw2 : 2 ≤ w) :
    (out.kd[i]? = some (.fin (L.a / 2)) ∨ out.kd[i]? = some R.bad) ∧
    (out.dp.getD i .nan ≠ R.bad → w / 2 ≤ i → i + w / 2 < R.n →
      0.8 * (w : ℝ) ≤ (samples R out (i - (w + 1) / 2) (i + w / 2 + 1)).length → out.kd[i]? = some (.fin (L.a / 2))) := by
  obtain ⟨h1, h2, h3⟩ := C93_window_slope ls hls R out e i hi z hz w hw
  have key : out.dp.getD i .nan ≠ R.bad → w / 2 ≤ i → i + w / 2 < R.n →
      0.8 * (w : ℝ) ≤ (samples R out (i - (w + 1) / 2) (i + w / 2 + 1)).length → out.kd[i]? = some (.fin (L.a / 2)) := by
    intro hnb hwi hwn hmany
    set lo := i - (w + 1) / 2 with hlo
    set hi' := i + w / 2 + 1 with hhi
    set ks := (List.range (hi' - lo)).filter (fun k => (out.dp.getD (lo + k) .nan) !=. R.bad) with hks
    have hk : ∀ k ∈ ks, lo + k < R.n ∧ out.dp.getD (lo + k) .nan = .fin (L.at S (lo + k : Nat)) := by
      intro k hk
      have h4 := List.mem_filter.mp hk
      have h5 := List.mem_range.mp h4.1
      have h6 : lo + k < R.n := by omega
      rcases hdp _ h6 with h7 | h7
      · exact ⟨h6, h7⟩
      · exact absurd h7 ((ne_bad h.bad _).mp h4.2)
    have hgs : samples R out lo hi' = (ks.map (fun (k : Nat) => (S.at (lo + k : Nat), L.at S (lo + k : Nat)))).map lift := by
      unfold samples
      rw [List.map_map]
      apply List.map_congr_left
      intro k hk'
      have h4 := hk k hk'
      simp only [Function.comp, lift, h4.2, h.rng _ h4.1]
    have hlen : 0.8 * (w : ℝ) ≤ ((ks.map (fun (k : Nat) => (S.at (lo + k : Nat), L.at S (lo + k : Nat)))).length : ℝ) := by
      have : (samples R out lo hi').length = (ks.map (fun (k : Nat) => (S.at (lo + k : Nat), L.at S (lo + k : Nat)))).length := by
        rw [hgs]; simp
      rw [← this]; exact hmany
    have htwo : TwoAbscissae (ks.map (fun (k : Nat) => (S.at (lo + k : Nat), L.at S (lo + k : Nat)))) := by
      have hnd : ks.Nodup := List.nodup_range.filter _
      have hl : 2 ≤ ks.length := by
        rw [List.length_map] at hlen
        have hwr : (2 : ℝ) ≤ w := by exact_mod_cast hw2
        by_contra hc'
        have : ks.length ≤ 1 := by omega
        have : (ks.length : ℝ) ≤ 1 := by exact_mod_cast this
        norm_num at hlen; linarith
      obtain ⟨a, b, l, hab⟩ : ∃ a b l, ks = a :: b :: l := by
        match hm : ks, hl with
        | a :: b :: l, _ => exact ⟨a, b, l, rfl⟩
      rw [hab] at hnd ⊢
      have hne : a ≠ b := by
        have := List.nodup_cons.mp hnd
        intro hc'; apply this.1; simp [hc']
      refine ⟨_, List.mem_map.mpr ⟨a, by simp, rfl⟩, _, List.mem_map.mpr ⟨b, by simp, rfl⟩, ?_⟩
      intro hc'
      have : S.s * (((lo + a : Nat) : Int) : ℝ) = S.s * ((lo + b : Nat) : Int) := by simpa [Spacing.at] using hc'
      have := mul_left_cancel₀ h.step this
      push_cast at this
      exact hne (by exact_mod_cast (add_left_cancel this))
    have hnb' : (out.dp.getD i .nan ==. R.bad) = false := by
      have := (ne_bad h.bad (out.dp.getD i .nan)).mpr hnb
      simpa [PyFloat.ne] using this
    obtain ⟨a, b, hls', hkd⟩ := (h3 hwi hwn).2 _ hnb' hgs hlen htwo
    rw [hkd, slope_unique htwo hls' L.a L.b (fun p hp => by
      obtain ⟨k, _, rfl⟩ := List.mem_map.mp hp; rfl)]
    congr 2
    ring
  refine ⟨?_, key⟩
  by_cases hb : out.dp.getD i .nan = R.bad
  · right
    apply h1
    have := (ne_bad h.bad (out.dp.getD i .nan)).not.mpr (by simpa using hb)
    simpa [PyFloat.ne] using this
  by_cases hf : i < w / 2 ∨ R.n ≤ i + w / 2
  · exact .inr (h2 hf)
  push Not at hf
  by_cases hc' : ((samples R out (i - (w + 1) / 2) (i + w / 2 + 1)).length : ℝ) < 0.8 * w
  · exact .inr ((h3 hf.1 hf.2).1 hc')
  · exact .inl (key hb hf.1 hf.2 (not_lt.mp hc'))

/-- **C94.** The pure-Python routine on phase that is linear in range, any gaps, any number of passes: every filtered gate is
bad or on the line, and every KDP with a window of width at least 2 is bad or exactly half the slope. -/
theorem C94_linear_ray (ls : List (XR × XR) → Except PyErr (XR × XR)) (hls : IsLstsq ls) (R : PRay XR) (out : RayOut XR)
    (e : calcKdpRay ls R = .ok out) (he : R.order % 2 = 0) (hg : R.gain = .fin 1) (β : ℝ) (hbad : R.bad = .fin β)
    (c : Nat → ℝ) (hc : R.coef = (List.range (R.order + 1)).map (fun k => .fin (c k))) (hsym : ∀ k ≤ R.order, c k = c (R.order - k))
    (hsum : ∑ k ∈ Finset.range (R.order + 1), c k = 1)
    (r0 s : ℝ) (hs : s ≠ 0) (hrng : ∀ j : Nat, j < R.n → R.rng j = .fin (r0 + s * j)) (a b : ℝ)
    (hdp : ∀ j : Nat, j < R.n → R.dp j = .fin (a * (r0 + s * j) + b) ∨ R.dp j = R.bad) (i : Nat) (hi : i < R.n) :
    (out.dp[i]? = some (.fin (a * (r0 + s * i) + b)) ∨ out.dp[i]? = some R.bad) ∧
    ∀ z, R.dz i = .fin z → 2 ≤ adaptiveWidth R.order z → out.kd[i]? = some (.fin (a / 2)) ∨ out.kd[i]? = some R.bad := by
  have hS : Setup R ⟨r0, s⟩ c := ⟨he, hg, ⟨β, hbad⟩, hs, fun j hj => by rw [hrng j hj]; simp [Spacing.at], hc, hsum, hsym⟩
  have hLat : ∀ j : Nat, (Line.mk a b).at ⟨r0, s⟩ j = a * (r0 + s * j) + b := by intro j; simp [Line.at, Spacing.at]
  obtain ⟨yz, hp, hd, -, -⟩ := run e
  have h1 := passes_line hls hS (L := ⟨a, b⟩) R.nf (fun j _ => .inr rfl) (fun j hj => by rw [hLat]; exact hdp j hj) hp
  have hget : ∀ j < R.n, out.dp.getD j .nan = yz.2 j := by
    intro j hj; rw [List.getD_eq_getElem?_getD, hd j hj]; rfl
  refine ⟨?_, fun z hz hw => ?_⟩
  · rw [hd i hi, ← hLat]
    rcases h1.1 i hi with h2 | h2
    · exact .inl (congrArg some h2)
    · exact .inr (congrArg some h2)
  · exact (kd_line hls hS (L := ⟨a, b⟩) e (fun j hj => by rw [hget j hj]; exact h1.1 j hj) i hi z hz _ rfl hw).1

/-- The population standard deviation of ten equally spaced values at distance `q` is `|q| √8.25`. -/
theorem popStd_ten (p q : ℝ) : popStd ((List.range 10).map (fun (k : Nat) => p + q * (k : ℝ))) = |q| * √8.25 := by
  have hr : List.range 10 = [0, 1, 2, 3, 4, 5, 6, 7, 8, 9] := by decide
  unfold popStd
  rw [hr, ← Real.sqrt_sq_eq_abs, ← Real.sqrt_mul (sq_nonneg q)]
  congr 1
  simp
  ring

/-- **C94 on a clean ray**: all phases good and linear, with roughness `|a s| √8.25` within the threshold, one pass or more.  The
filtered phase is the phase at every gate with `order/2 + 5` gates before and `order/2 + 6` after it, and KDP is exactly half the
slope at every gate with a further half window on both sides — whatever its reflectivity, even bad. -/
theorem C94_clean_ray (ls : List (XR × XR) → Except PyErr (XR × XR)) (hls : IsLstsq ls) (R : PRay XR) (out : RayOut XR)
    (e : calcKdpRay ls R = .ok out) (he : R.order % 2 = 0) (hg : R.gain = .fin 1) (β : ℝ) (hbad : R.bad = .fin β)
    (c : Nat → ℝ) (hc : R.coef = (List.range (R.order + 1)).map (fun k => .fin (c k))) (hsym : ∀ k ≤ R.order, c k = c (R.order - k))
    (hsum : ∑ k ∈ Finset.range (R.order + 1), c k = 1) (hnf : 1 ≤ R.nf)
    (r0 s : ℝ) (hs : s ≠ 0) (hrng : ∀ j : Nat, j < R.n → R.rng j = .fin (r0 + s * j)) (a b : ℝ)
    (hdp : ∀ j : Nat, j < R.n → R.dp j = .fin (a * (r0 + s * j) + b) ∧ a * (r0 + s * j) + b ≠ β)
    (t : ℝ) (ht : ∀ j : Nat, j < R.n → R.thsd j = .fin t) (hrough : |a * s| * √8.25 ≤ t) :
    (∀ i : Nat, 5 ≤ i → i + 6 < R.n → out.sd[i]? = some (.fin (|a * s| * √8.25))) ∧
    (∀ i : Nat, R.order / 2 + 5 ≤ i → i + R.order / 2 + 6 < R.n → out.dp[i]? = some (.fin (a * (r0 + s * i) + b))) ∧
    (∀ (i : Nat) (z : ℝ), R.dz i = .fin z → 2 ≤ adaptiveWidth R.order z →
      R.order / 2 + 5 + (adaptiveWidth R.order z + 1) / 2 ≤ i → i + R.order / 2 + 6 + adaptiveWidth R.order z / 2 < R.n →
      out.kd[i]? = some (.fin (a / 2))) := by
  have hS : Setup R ⟨r0, s⟩ c := ⟨he, hg, ⟨β, hbad⟩, hs, fun j hj => by rw [hrng j hj]; simp [Spacing.at], hc, hsum, hsym⟩
  have hLat : ∀ j : Nat, (Line.mk a b).at ⟨r0, s⟩ j = a * (r0 + s * j) + b := by intro j; simp [Line.at, Spacing.at]
  have hfin : ∀ j : Nat, j < R.n → XR.fin ((Line.mk a b).at ⟨r0, s⟩ j) ≠ R.bad := by
    intro j hj hc'
    rw [hbad, hLat] at hc'
    exact (hdp j hj).2 (XR.fin.inj hc')
  have hgood : ∀ j : Nat, j < R.n → (R.dp j !=. R.bad) = true := by
    intro j hj
    rw [ne_bad ⟨β, hbad⟩, (hdp j hj).1, ← hLat]; exact hfin j hj
  have hsd : ∀ i : Nat, 5 ≤ i → i + 6 < R.n → out.sd[i]? = some (.fin (|a * s| * √8.25)) := by
    intro i h5 h6
    have hten : goodTen R i = ((List.range 10).map (fun (k : Nat) => (a * (r0 + s * ((i : ℝ) - 5)) + b) + (a * s) * (k : ℝ))).map .fin := by
      unfold goodTen
      rw [List.filter_eq_self.mpr, List.map_map]
      · apply List.map_congr_left
        intro k hk
        have hk := List.mem_range.mp hk
        rw [(hdp (i - 5 + k) (by omega)).1]
        simp only [Function.comp]
        congr 1
        rw [Nat.cast_add, Nat.cast_sub h5]; push_cast; ring
      · intro x hx
        obtain ⟨k, hk, rfl⟩ := List.mem_map.mp hx
        have hk := List.mem_range.mp hk
        exact hgood _ (by omega)
    rw [(C91_ten_gates_partial ls R out e i (by omega)).2 _ (hgood i (by omega)) h5 h6 (by simp) hten, popStd_ten]
  obtain ⟨yz, hp, hd, hs', -⟩ := run e
  have hget : ∀ j < R.n, out.dp.getD j .nan = yz.2 j := by
    intro j hj; rw [List.getD_eq_getElem?_getD, hd j hj]; rfl
  have hsdv : ∀ i : Nat, 5 ≤ i → i + 6 < R.n → (sdAt R i <=. R.thsd i) = true := by
    intro i h5 h6
    have h1 := hsd i h5 h6
    rw [hs' i (by omega)] at h1
    rw [Option.some.inj h1, ht i (by omega), XR.fle]
    simpa using hrough
  obtain ⟨k, hk⟩ : ∃ k, R.nf = k + 1 := ⟨R.nf - 1, by omega⟩
  have hall := passes_line hls hS (L := ⟨a, b⟩) R.nf (fun j _ => .inr rfl) (fun j hj => by rw [hLat]; exact .inl (hdp j hj).1) hp
  rw [hk] at hp
  unfold passes at hp
  obtain ⟨u, hu, hp⟩ := bind_ok hp
  have hpl := pass_line hls hS (L := ⟨a, b⟩) (fun j hj => by rw [hLat]; exact .inl (hdp j hj).1) hu
  have hu1 : OnLineP R ⟨r0, s⟩ ⟨a, b⟩ u.1 := by
    intro j hj
    rcases hpl.2 j hj with h2 | h2
    · exact .inl h2
    · exact .inr h2
  have hrest := passes_line hls hS (L := ⟨a, b⟩) k hu1 (hpl.1 ▸ hu1) hp
  have hdpl : ∀ i : Nat, R.order / 2 + 5 ≤ i → i + R.order / 2 + 6 < R.n → yz.2 i = .fin ((Line.mk a b).at ⟨r0, s⟩ i) := by
    intro i h5 h6
    refine hrest.2 hpl.1 i (by omega) ?_
    rw [hpl.1]
    obtain ⟨-, -, h2⟩ := C92_gates_independent ls R (sdAt R) _ u hu i (by omega)
    obtain ⟨o, ho, hr⟩ := h2 (by rw [hsdv i (by omega) (by omega), hgood i (by omega)]; rfl)
    cases o with
    | some v =>
      rw [hr]
      refine newPhase_line hls hS (fun j hj => by rw [hLat]; exact .inl (hdp j hj).1) (fun j hj => ?_) ho
      rw [Bool.and_eq_true] at hj
      exact (ne_bad ⟨β, hbad⟩ _).mp hj.2
    | none =>
      exfalso
      unfold newPhase at ho
      rw [if_pos (by omega)] at ho
      dsimp only at ho
      have hgl : ((win (i - R.order / 2) (2 * (R.order / 2) + 1)).filter
          (fun j => (sdAt R j <=. R.thsd j) && (R.dp j !=. R.bad))).length = R.order + 1 := by
        rw [List.filter_eq_self.mpr]
        · simp [win]; omega
        · intro j hj
          obtain ⟨m, hm, rfl⟩ := List.mem_map.mp hj
          have hm := List.mem_range.mp hm
          rw [hsdv _ (by omega) (by omega), hgood _ (by omega)]; rfl
      rw [hgl, if_pos (by
        simp only [XR.fofNat, XR.fsci, XR.fmul, XR.fgt, decide_eq_true_eq]
        push_cast
        have : (0 : ℝ) ≤ R.order := by positivity
        norm_num; linarith), if_neg (by omega)] at ho
      split at ho <;> cases ho
  refine ⟨hsd, fun i h5 h6 => ?_, fun i z hz hw2 h5 h6 => ?_⟩
  · rw [hd i (by omega), hdpl i h5 h6, hLat]
  · refine (kd_line hls hS (L := ⟨a, b⟩) e (fun j hj => by rw [hget j hj]; exact hall.1 j hj) i (by omega) z hz _ rfl hw2).2 ?_
      (by omega) (by omega) ?_
    · rw [hget i (by omega), hdpl i (by omega) (by omega)]
      exact hfin i (by omega)
    · set w := adaptiveWidth R.order z
      have hlen : (samples R out (i - (w + 1) / 2) (i + w / 2 + 1)).length = w + 1 := by
        unfold samples
        rw [List.length_map, List.filter_eq_self.mpr, List.length_range]
        · omega
        · intro k hk'
          have hk' := List.mem_range.mp hk'
          rw [hget _ (by omega), hdpl _ (by omega) (by omega), ne_bad ⟨β, hbad⟩]
          exact hfin _ (by omega)
      rw [hlen]
      push_cast
      have : (0 : ℝ) ≤ w := by positivity
      norm_num; linarith

/-! ## A concrete ray: 101 gates, phase `2 + 2 j`, order-20 filter of `get_fir`, two passes -/

/-- the ray, with reflectivity `z` everywhere and filter `f` -/
noncomputable def pyRay (f : Fir XR) (z : ℝ) : PRay XR :=
  { n := 101, dp := fun j => .fin (2 * (1 + 1 * j) + 0), dz := fun _ => .fin z, rng := fun j => .fin (1 + 1 * j), thsd := fun _ => .fin 12,
    nf := 2, bad := .fin (-32768), order := f.order, gain := f.gain, coef := f.coef, castNan := 0 }

theorem pyRay_kd (z : ℝ) : ∃ f out, getFir 150 3 = .ok (some f) ∧ calcKdpRay closedForm (pyRay f z) = .ok out ∧ out.kd[50]? = some (.fin 1) := by
  obtain ⟨f, hf, h20⟩ := fir_150_3
  obtain ⟨c, heven, hcoef, hsym, -, hsum⟩ := C72_filter_design 150 3 (by norm_num) (by norm_num) f hf
  obtain ⟨out, e, -⟩ := C95_returns closedForm closedForm_returns (pyRay f z) (by
    show f.coef.length = 2 * (f.order / 2) + 1
    rw [hcoef]; simp; omega)
  refine ⟨f, out, hf, e, ?_⟩
  have ho : (pyRay f z).order = 20 := h20
  have hw : 2 ≤ adaptiveWidth 20 z ∧ adaptiveWidth 20 z ≤ 30 := by unfold adaptiveWidth; split <;> [skip; split] <;> omega
  have := (C94_clean_ray closedForm closedForm_isLstsq (pyRay f z) out e heven (fir_ok (by norm_num) (by norm_num) hf) (-32768) rfl c hcoef hsym
    hsum (by show 1 ≤ 2; decide) 1 1 one_ne_zero (fun _ _ => rfl) 2 0 (fun j hj => ⟨rfl, by
      have : (0 : ℝ) ≤ j := by positivity
      intro hc; linarith⟩) 12 (fun _ _ => rfl) (by
      have h9 : √(8.25 : ℝ) ≤ 3 := by rw [Real.sqrt_le_left (by norm_num)]; norm_num
      norm_num at h9 ⊢; linarith)).2.2 50 z rfl (by rw [ho]; exact hw.1) (by rw [ho]; omega) (by rw [ho]; show _ < 101; omega)
  rw [this]; norm_num

/-- the hypotheses of C93, C94 and C95 are met (reflectivity 40) -/
example : ∃ f out, getFir 150 3 = .ok (some f) ∧ calcKdpRay closedForm (pyRay f 40) = .ok out ∧ out.kd[50]? = some (.fin 1) := pyRay_kd 40

/-- C96, full statement (as for the compiled kernels, C12): gates with bad reflectivity have bad KDP. -/
def C96Full : Prop := ∀ (ls : List (XR × XR) → Except PyErr (XR × XR)) (R : PRay XR) (out : RayOut XR) (i : Nat),
  IsLstsq ls → calcKdpRay ls R = .ok out → i < R.n → (R.dz i ==. R.bad) = true → out.kd[i]? = some R.bad

/-- **C96 is false** of the pure-Python routine: reflectivity that is bad everywhere still gives KDP. -/
theorem C96_full_false : ¬ C96Full := by
  intro h
  obtain ⟨f, out, hf, e, hk⟩ := pyRay_kd (-32768)
  have := h closedForm (pyRay f (-32768)) out 50 closedForm_isLstsq e (by show 50 < 101; decide) (by
    show (XR.fin (-32768) ==. XR.fin (-32768)) = true; simp)
  rw [hk] at this
  have := XR.fin.inj (Option.some.inj this)
  norm_num at this

/-- **C96, what holds**: the bad value -32768 counts as reflectivity below 35, so the window has the width for weak echo. -/
theorem C96_bad_is_weak_echo_partial (R : PRay XR) (i : Nat) (z : ℝ) (hz : R.dz i = .fin z) (hb : z < 35) :
    nadp R i = 3 * (R.order / 2) := by
  rw [nadp_width R i z hz]
  unfold adaptiveWidth
  rw [if_neg (by linarith), if_neg (by linarith)]

/-- The call of the compiled kernel with the same arguments, as `calc_kdp_bringi` makes it (standard deviation over 11 gates). -/
noncomputable def compiled (J : Junk XR) (R : PRay XR) : Ray XR :=
  { n := R.n, dp := ⟨R.n, fun j => R.dp j.toNat⟩, dz := ⟨R.n, fun j => R.dz j.toNat⟩, rng := ⟨R.n, fun j => R.rng j.toNat⟩,
    thsd := ⟨R.n, fun j => R.thsd j.toNat⟩, nf := R.nf, bad := R.bad, order := R.order, gain := R.gain, coef := coefBuf J R.coef,
    stdGate := 11, nadp0 := J.nadp 0 }

/-- C97, full statement: the pure-Python routine returns what the compiled kernel (the correct one, Fortran) returns. -/
def C97Full : Prop := ∀ (ls : List (XR × XR) → Except PyErr (XR × XR)) (J : Junk XR) (R : PRay XR) (out out' : RayOut XR),
  IsLstsq ls → R.order % 2 = 0 → R.coef.length = R.order + 1 → calcKdpRay ls R = .ok out →
  calcKdpRayFir fortran false (compiled J R) = .ok out' → out = out'

/-- **C97 is false**: with bad reflectivity everywhere the compiled kernel returns no KDP, the pure-Python routine does. -/
theorem C97_full_false : ¬ C97Full := by
  intro h
  obtain ⟨f, out, hf, e, hk⟩ := pyRay_kd (-32768)
  obtain ⟨c, heven, hcoef, -⟩ := C72_filter_design 150 3 (by norm_num) (by norm_num) f hf
  obtain ⟨out', e'⟩ := C71_fortran_returns (compiled exJunk (pyRay f (-32768)))
  have := h closedForm exJunk (pyRay f (-32768)) out out' closedForm_isLstsq heven (by
    show f.coef.length = f.order + 1
    rw [hcoef]; simp) e e'
  subst this
  have h2 := C12_bad_reflectivity fortran false _ out e' 50 (by show 50 < 101; decide) (by
    show (XR.fin (-32768) ==. XR.fin (-32768)) = true; simp)
  rw [hk] at h2
  have := XR.fin.inj (Option.some.inj h2)
  norm_num at this

/-- **C97, what holds**: on a clean ray of linear phase the two return the same filtered phase and the same KDP, half the slope, at
every gate of good reflectivity far enough from the ends. -/
theorem C97_clean_ray_partial (ls : List (XR × XR) → Except PyErr (XR × XR)) (hls : IsLstsq ls) (J : Junk XR) (R : PRay XR)
    (out out' : RayOut XR) (e : calcKdpRay ls R = .ok out) (e' : calcKdpRayFir fortran false (compiled J R) = .ok out')
    (he : R.order % 2 = 0) (hg : R.gain = .fin 1) (β : ℝ) (hbad : R.bad = .fin β)
    (c : Nat → ℝ) (hc : R.coef = (List.range (R.order + 1)).map (fun k => .fin (c k))) (hsym : ∀ k ≤ R.order, c k = c (R.order - k))
    (hsum : ∑ k ∈ Finset.range (R.order + 1), c k = 1) (hnf : 1 ≤ R.nf)
    (r0 s : ℝ) (hs : s ≠ 0) (hrng : ∀ j : Nat, j < R.n → R.rng j = .fin (r0 + s * j) ∧ r0 + s * j ≤ 1e35) (a b : ℝ)
    (hdp : ∀ j : Nat, j < R.n → R.dp j = .fin (a * (r0 + s * j) + b) ∧ a * (r0 + s * j) + b ≠ β ∧ a * (r0 + s * j) + b ≤ 1e35)
    (t : ℝ) (ht : ∀ j : Nat, j < R.n → R.thsd j = .fin t) (hrough : |a * s| * √((5 : ℝ) * (5 + 1) / 3) ≤ t)
    (i : Nat) (z : ℝ) (hz : R.dz i = .fin z) (hzb : z ≠ β) (hw2 : 2 ≤ adaptiveWidth R.order z)
    (h5 : R.order / 2 + 5 + (adaptiveWidth R.order z + 1) / 2 ≤ i) (h6 : i + R.order / 2 + 6 + adaptiveWidth R.order z / 2 < R.n) :
    out.dp[i]? = out'.dp[i]? ∧ out.kd[i]? = out'.kd[i]? ∧ out.kd[i]? = some (.fin (a / 2)) := by
  obtain ⟨-, hd, hk⟩ := C94_clean_ray ls hls R out e he hg β hbad c hc hsym hsum hnf r0 s hs (fun j hj => (hrng j hj).1) a b
    (fun j hj => ⟨(hdp j hj).1, (hdp j hj).2.1⟩) t ht (by
      refine le_trans (mul_le_mul_of_nonneg_left (Real.sqrt_le_sqrt ?_) (abs_nonneg _)) hrough
      norm_num)
  have hk := hk i z hz hw2 h5 h6
  have hd := hd i (by omega) (by omega)
  set S : Spacing := ⟨r0, s⟩
  set L : Line := ⟨a, b⟩
  have hat : ∀ j : Nat, S.at j = r0 + s * j := by intro j; simp [Spacing.at, S]
  have hLat : ∀ j : Nat, L.at S j = a * (r0 + s * j) + b := by intro j; simp only [Line.at, hat, L]
  have hF : FirData fortran (compiled J R) S c 1 0 := by
    refine ⟨he, hg, ⟨β, hbad⟩, hs, ?_, ?_, hsum, moment_zero _ he c hsym⟩
    · intro j j0 j1
      obtain ⟨m, rfl⟩ : ∃ m : Nat, j = m := ⟨j.toNat, by omega⟩
      have hm : m < R.n := by have : (compiled J R).n = R.n := rfl; omega
      rw [hat]
      exact ⟨(hrng m hm).1, fortran_skip (hrng m hm).2 _⟩
    · intro k hk
      have := (coef_at (J := J) hc).1 k hk
      simp only [fortran, add_zero]
      exact this
  have hN : NoSkip fortran (compiled J R) S L := by
    intro j j0 j1 _
    obtain ⟨m, rfl⟩ : ∃ m : Nat, j = m := ⟨j.toNat, by omega⟩
    rw [hLat]
    exact fortran_skip (hdp m (by have : (compiled J R).n = R.n := rfl; omega)).2.2 _
  have hfin : ∀ j : Nat, j < R.n → XR.fin (L.at S j) ≠ (compiled J R).bad := by
    intro j hj hc'
    have : (compiled J R).bad = .fin β := hbad
    rw [this, hLat] at hc'
    exact (hdp j hj).2.1 (XR.fin.inj hc')
  have hC : CleanRay (compiled J R) S L 5 := by
    refine ⟨rfl, fun j hj => ⟨?_, hfin j hj⟩, fun j hj => ⟨t, ht j hj, by push_cast; exact hrough⟩⟩
    rw [hLat]; exact (hdp j hj).1
  have hnf' : (compiled J R).nf = 1 ∨ (1 ≤ (compiled J R).nf ∧ (1 : ℝ) = 1 ∧ (0 : ℝ) = 0) := .inr ⟨hnf, rfl, rfl⟩
  have hD := clean_dp e' hF hC hN hnf'
  rw [step_id] at hD
  obtain ⟨yz, r⟩ := calc_run e'
  have hi : i < out'.dp.length := by rw [r.dpLen]; show i < R.n; omega
  have hd' : out'.dp[i]? = some (.fin (a * (r0 + s * i) + b)) := by
    have := hD.2 i (by show R.order / 2 + 5 ≤ i; omega) (by show i + R.order / 2 + 5 < R.n; omega)
    rw [List.getD_eq_getElem?_getD, List.getElem?_eq_getElem hi] at this
    rw [List.getElem?_eq_getElem hi, ← hLat]
    exact congrArg some this
  have hW : Width (compiled J R) ((compiled J R).dz.mem i) (adaptiveWidth R.order z) := by
    show Width (compiled J R) (R.dz i) _
    rw [hz]; exact width_adaptive (compiled J R) z
  have hk' := clean_kd (.inr rfl) e' hF hC hN hnf' (by rw [step_id]; exact hN) (by rw [step_id]; exact hfin) i _ hW hw2 (by
    show R.dz i ≠ R.bad
    rw [hz, hbad]; intro hc'; exact hzb (XR.fin.inj hc')) (by
    generalize adaptiveWidth R.order z = w at *
    have h1 : w ≤ winLen fortran w := by unfold winLen; simp only [fortran]; omega
    have h1 : (w : ℝ) ≤ winLen fortran w := by exact_mod_cast h1
    have h2 : (2 : ℝ) ≤ w := by exact_mod_cast hw2
    norm_num; linarith) (by show R.order / 2 + 5 + _ ≤ i; omega) (by show i + R.order / 2 + 5 + _ < R.n; omega)
  rw [one_mul] at hk'
  exact ⟨by rw [hd, hd'], by rw [hk, hk'], hk⟩

end Csu.KdpPy
