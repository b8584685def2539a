import Verif.Lemmas.KdpFlag
import Verif.Props.KdpGate
import Verif.Props.KdpLocal
import Verif.Props.Misc
/-! # C149: which values can mark missing data (argument `bad`) -/
namespace Csu.BadValue
open Csu PyFloat
variable {α : Type} [PyFloat α]

/-! ## Specification -/

/-- A gate with or without a value, missing values being marked by `b`. -/
def mark (b : α) : Option α → α
  | none => b
  | some v => v

/-- `b` is usable as a mark for the data: it equals itself (so it is not NaN) and no value present equals it. -/
structure Mark (b : α) (l : List (Option α)) : Prop where
  refl : (b ==. b) = true
  free : ∀ v, some v ∈ l → (v ==. b) = false

theorem mark_eq {b : α} {l : List (Option α)} (h : Mark b l) {o : Option α} (ho : o ∈ l) : (mark b o ==. b) = o.isNone := by
  cases o with
  | none => exact h.refl
  | some v => exact h.free v ho

/-! ## The filters of csu_misc: every number serves -/

/-- **C149**, filters, any arithmetic.  Marking the missing gates by `b` or by `b'` gives the same mask, whatever the data, ranges and thresholds, provided
neither mark is NaN or occurs among the data. -/
theorem C149_filters_partial (b b' : α) (dz zdr : List (Option α)) (hl : dz.length = zdr.length) (h1 : Mark b dz) (h1' : Mark b' dz) (h2 : Mark b zdr)
    (h2' : Mark b' zdr) (dzRange : List (α × α)) (drThresh : List α) (n : Int) :
    Misc.insectFilter (dz.map (mark b)) (zdr.map (mark b)) none dzRange drThresh b =
      Misc.insectFilter (dz.map (mark b')) (zdr.map (mark b')) none dzRange drThresh b' ∧
    Misc.secondTripFilter (dz.map (mark b)) b = Misc.secondTripFilter (dz.map (mark b')) b' ∧
    Misc.despeckle1 (dz.map (mark b)) b n = Misc.despeckle1 (dz.map (mark b')) b' n := by
  refine ⟨?_, ?_, ?_⟩
  · by_cases hr : drThresh.length ≤ dzRange.length
    · obtain ⟨o, e, ol, os⟩ := Misc.C01_insect_filter_exact (dz.map (mark b)) (zdr.map (mark b)) none dzRange drThresh b (by simpa using hl) (by simp) hr
      obtain ⟨o', e', ol', os'⟩ := Misc.C01_insect_filter_exact (dz.map (mark b')) (zdr.map (mark b')) none dzRange drThresh b' (by simpa using hl) (by simp) hr
      rw [e, e']
      congr 1
      apply List.ext_getElem (by rw [ol, ol']; simp)
      intro i hi hi'
      have a1 : i < dz.length := by simpa [ol] using hi
      have a2 : i < zdr.length := by omega
      have s := os i (mark b dz[i]) (mark b zdr[i]) (by simp [a1]) (by simp [a2])
      have s' := os' i (mark b' dz[i]) (mark b' zdr[i]) (by simp [a1]) (by simp [a2])
      simp only [mark_eq h1 (List.getElem_mem a1), mark_eq h2 (List.getElem_mem a2)] at s
      simp only [mark_eq h1' (List.getElem_mem a1), mark_eq h2' (List.getElem_mem a2)] at s'
      rw [Bool.eq_iff_iff]
      rw [List.getElem?_eq_getElem hi, Option.some.injEq] at s
      rw [List.getElem?_eq_getElem hi', Option.some.injEq] at s'
      rw [s, s']
      cases hd : dz[i] with
      | none => simp
      | some d =>
        cases hz : zdr[i] with
        | none => simp
        | some z => rfl
    · rw [Misc.C01_insect_filter_index_error _ _ _ _ _ _ (by omega), Misc.C01_insect_filter_index_error _ _ _ _ _ _ (by omega)]
  · unfold Misc.secondTripFilter
    rw [List.map_map, List.map_map]
    apply List.map_congr_left
    intro o ho
    simp only [Function.comp, mark_eq h1 ho, mark_eq h1' ho]
  · unfold Misc.despeckle1
    congr 1
    unfold Misc.goodGates
    rw [List.map_map, List.map_map]
    apply List.map_congr_left
    intro o ho
    simp only [Function.comp, mark_eq h1 ho, mark_eq h1' ho]

/-- two usable marks for reflectivities with missing gates -/
example : Mark (QF.q (-32768)) [some (QF.q 20), none, some (QF.q 35)] ∧ Mark (QF.q (-9999)) [some (QF.q 20), none, some (QF.q 35)] := by
  refine ⟨⟨by decide +kernel, ?_⟩, ⟨by decide +kernel, ?_⟩⟩ <;>
  · intro v hv
    simp only [List.mem_cons, Option.some.injEq, reduceCtorEq, List.not_mem_nil, or_false, false_or] at hv
    rcases hv with rfl | rfl <;> decide +kernel

/-- C149 in full for the filters: any value, NaN included, can mark missing gates. -/
def C149FiltersFull : Prop := ∀ (b b' : QF) (dz : List (Option QF)) (n : Int), (∀ v, some v ∈ dz → (v ==. b) = false ∧ (v ==. b') = false) →
  Misc.secondTripFilter (dz.map (mark b)) b = Misc.secondTripFilter (dz.map (mark b')) b' ∧
  Misc.despeckle1 (dz.map (mark b)) b n = Misc.despeckle1 (dz.map (mark b')) b' n

/-- NaN cannot: `data == bad` is never true. -/
theorem C149_nan_full_false : ¬ C149FiltersFull := by
  intro h
  have := (h (.q (-32768)) .nan [none] 4 (by simp)).1
  revert this
  decide +kernel

/-- a value that nothing equals, like NaN -/
def EqualsNothing (b : α) : Prop := ∀ x : α, (x ==. b) = false

/-- **C149**, NaN as mark, filters: no gate counts as missing.  `second_trip_filter_magnetron` flags nothing, `despeckle` keeps every gate of a ray of more than
`ngates` gates and flags every gate of a shorter one, `insect_filter` flags by its thresholds only. -/
theorem C149_nan_filters_partial (b : α) (hb : EqualsNothing b) (data : List α) (n : Int) (i : Nat) (hi : i < data.length) :
    (Misc.secondTripFilter data b)[i]? = some false ∧
    ((Misc.despeckle1 data b n)[i]? = some false ↔ n < data.length) ∧
    (∀ (zdr : List α) (dzRange : List (α × α)) (drThresh : List α), data.length = zdr.length → drThresh.length ≤ dzRange.length →
      ∃ out, Misc.insectFilter data zdr none dzRange drThresh b = .ok out ∧ ∀ z, zdr[i]? = some z →
        (out[i]? = some true ↔ ∃ (k : Nat) (lo hi t : α), dzRange[k]? = some (lo, hi) ∧ drThresh[k]? = some t ∧
          (lo <. data[i]) = true ∧ (data[i] <=. hi) = true ∧ (t <=. z) = true)) := by
  refine ⟨by simp [Misc.secondTripFilter, hi, hb data[i]], ?_, fun zdr dzRange drThresh hl hr => ?_⟩
  · rw [Misc.inLongRun_iff]
    constructor
    · rintro ⟨s, h1, h2, h3⟩
      obtain ⟨x, hx, -⟩ := h3 (s + n.toNat) (by omega) (by omega)
      have : s + n.toNat < data.length := by
        by_contra hc; rw [List.getElem?_eq_none_iff.mpr (by omega)] at hx; cases hx
      omega
    · intro h
      refine ⟨min i (data.length - 1 - n.toNat), by omega, by omega, fun j h1 h2 => ?_⟩
      have hj : j < data.length := by omega
      exact ⟨data[j], List.getElem?_eq_getElem hj, hb _⟩
  · obtain ⟨o, e, ol, os⟩ := Misc.C01_insect_filter_exact data zdr none dzRange drThresh b hl (by simp) hr
    refine ⟨o, e, fun z hz => ?_⟩
    rw [os i data[i] z (List.getElem?_eq_getElem hi) hz]
    simp [hb data[i], hb z]

example : EqualsNothing (QF.nan) := by intro x; cases x <;> rfl
example : EqualsNothing (XR.nan) := by intro x; simp
/-- all gates of a ray of five pass `despeckle` with four gates, though three are NaN -/
example : Misc.despeckle1 [QF.nan, .q 1, .nan, .nan, .q 2] .nan 4 = [false, false, false, false, false] ∧
    Misc.despeckle1 [QF.q (-9), .q 1, .q (-9), .q (-9), .q 2] (.q (-9)) 4 = [true, true, true, true, true] := by decide +kernel

end Csu.BadValue

/-! ## KDP -/
namespace Csu.Kdp
open Csu PyFloat KdpSpec Csu.BadValue

/-- The ray `R` with phases `x` and reflectivities `d` (`none` = missing), missing values and `bad` being `b`. -/
def marked {α : Type} (R : Ray α) (x d : Int → Option α) (b : α) : Ray α :=
  { R with dp := ⟨R.dp.len, fun j => mark b (x j)⟩, dz := ⟨R.dz.len, fun j => mark b (d j)⟩, bad := b }

/-- **C149**, KDP, both kernels, any arithmetic with infinities and NaN in data, ranges, thresholds and coefficients, any gaps, any number of passes: all but
finitely many numbers serve equally as the mark.  There is one result (an exception; or KDP and filtered phases, gate by gate missing or a value, and standard
deviations) that every other number gives, with missing values marked by it. -/
theorem C149_kdp_partial (D : Dialect XR) (hD : D = cython ∨ D = fortran) (chk : Bool) (R : Ray XR) (x d : Int → Option XR) :
    ∃ E : Set ℝ, E.Finite ∧
      ((∃ e, ∀ b ∉ E, calcKdpRayFir D chk (marked R x d (.fin b)) = .error e) ∨
       ∃ (kd dp : List (Option XR)) (sd : List XR), ∀ b ∉ E,
         calcKdpRayFir D chk (marked R x d (.fin b)) = .ok ⟨kd.map (mark (.fin b)), dp.map (mark (.fin b)), sd⟩) := by
  have hS : Flag.Skips D := by
    rcases hD with rfl | rfl
    · exact Flag.skips_cython
    · exact Flag.skips_fortran
  have hw : D.winEnd ≤ 1 := by rcases hD with rfl | rfl <;> simp [cython, fortran]
  have hm : ∀ (b : ℝ) (o : Option XR), mark (.fin b) o = Flag.fval b o := fun b o => by cases o <;> rfl
  have hR : ∀ b, marked R x d (.fin b) = Flag.flagged R x d b := fun b => by simp [marked, Flag.flagged, hm]
  rcases Flag.ev_calc (R := R) (x := x) (d := d) hS hw chk with ⟨e, he⟩ | ⟨V, hV, r, hr⟩
  · refine ⟨_, Filter.eventually_cofinite.mp he, .inl ⟨e, fun b hb => ?_⟩⟩
    rw [hR]; simpa using hb
  · refine ⟨_, Filter.eventually_cofinite.mp (hV.and hr), .inr ⟨r.kd, r.dp, r.sd, fun b hb => ?_⟩⟩
    simp only [Set.mem_setOf_eq, not_not] at hb
    rw [hR, hb.1, hb.2]
    unfold Flag.Res.out
    congr 2 <;> exact List.map_congr_left fun o _ => (hm b o).symm

/-- C149 in full for KDP: any two values that do not occur among the phases and reflectivities serve equally (here over the rationals, NaN included). -/
def C149KdpFull : Prop := ∀ (R : Ray QF) (x d : Int → Option QF) (b b' : QF) (o o' : RayOut QF),
  (∀ j v, x j = some v → (v ==. b) = false ∧ (v ==. b') = false) → (∀ j v, d j = some v → (v ==. b) = false ∧ (v ==. b') = false) →
  calcKdpRayFir cython true (marked R x d b) = .ok o → calcKdpRayFir cython true (marked R x d b') = .ok o' →
  ∀ (i : Nat) (u : QF), o.kd[i]? = some u → u ≠ b → o'.kd[i]? = some u

/-- phases 0, 2, 4, ... with a gap at gate 4, reflectivity 50 dBZ -/
def markX (j : Int) : Option QF := if j = 4 then none else some (.q (2 * j))
def markD (_ : Int) : Option QF := some 50

theorem kdp_false (b' : QF) (hx : ∀ j v, markX j = some v → (v ==. (QF.q (-5))) = false ∧ (v ==. b') = false)
    (hd : ∀ j v, markD j = some v → (v ==. (QF.q (-5))) = false ∧ (v ==. b') = false) (i : Nat) (u : QF)
    (h1 : (calcKdpRayFir cython true (marked (gapRay 0) markX markD (.q (-5)))).toOption.map (fun o => o.kd[i]?) = some (some u)) (hu : u ≠ .q (-5))
    (h2 : (calcKdpRayFir cython true (marked (gapRay 0) markX markD b')).isOk = true)
    (h3 : (calcKdpRayFir cython true (marked (gapRay 0) markX markD b')).toOption.map (fun o => o.kd[i]?) ≠ some (some u)) : ¬ C149KdpFull := by
  intro h
  have hh := h (gapRay 0) markX markD (.q (-5)) b'
  revert h1 h2 h3 hh
  generalize calcKdpRayFir cython true (marked (gapRay 0) markX markD (.q (-5))) = X
  generalize calcKdpRayFir cython true (marked (gapRay 0) markX markD b') = Y
  intro h1 h2 h3 hh
  cases X with
  | error e => cases h1
  | ok o =>
    cases Y with
    | error e => cases h2
    | ok o' => exact h3 (congrArg some (hh o o' hx hd rfl rfl i u (Option.some.inj h1) hu))

theorem markX_free (b' : QF) (h : ∀ j : Int, j ≠ 4 → (QF.q (2 * j) ==. b') = false) :
    ∀ j v, markX j = some v → (v ==. (QF.q (-5))) = false ∧ (v ==. b') = false := by
  intro j v hv
  unfold markX at hv
  split at hv
  · cases hv
  · rename_i hj
    cases hv
    refine ⟨?_, h j hj⟩
    show decide ((2 * (j : Rat)) = -5) = false
    rw [decide_eq_false_iff_not]
    intro hc
    have : ((2 * j : Int) : Rat) = ((-5 : Int) : Rat) := by push_cast; exact hc
    have := Rat.intCast_injective this
    omega

/-- NaN as mark: with the gap marked by -5 the gates around it get KDP 1, with NaN they get none. -/
theorem C149_kdp_nan_full_false : ¬ C149KdpFull :=
  kdp_false .nan (markX_free _ fun _ _ => rfl) (by intro j v hv; cases hv; exact ⟨by decide +kernel, by decide +kernel⟩) 4 1
    (by decide +kernel) (by decide +kernel) (by decide +kernel) (by decide +kernel)

/-- An unlucky number as mark: 8 does not occur among the phases, but it is the filtered phase of the gap, which is then taken for missing. -/
theorem C149_kdp_collision_full_false : ¬ C149KdpFull :=
  kdp_false (.q 8) (markX_free _ fun j hj => by
      show decide ((2 * (j : Rat)) = 8) = false
      rw [decide_eq_false_iff_not]
      intro hc
      have : ((2 * j : Int) : Rat) = ((8 : Int) : Rat) := by push_cast; exact hc
      have := Rat.intCast_injective this
      omega) (by intro j v hv; cases hv; exact ⟨by decide +kernel, by decide +kernel⟩) 4 1
    (by decide +kernel) (by decide +kernel) (by decide +kernel) (by decide +kernel)

/-! ### NaN as mark -/

theorem foldl_nan_absorb {β : Type} (f : XR → β → XR) (hf : ∀ x, f .nan x = .nan) (l : List β) : l.foldl f .nan = .nan := by
  induction l with
  | nil => rfl
  | cons x l ih => rw [List.foldl_cons, hf, ih]

theorem foldl_nan_hit {β : Type} (f : XR → β → XR) (hf : ∀ x, f .nan x = .nan) (l : List β) (x : β) (hx : x ∈ l) (hh : ∀ a, f a x = .nan) (a : XR) :
    l.foldl f a = .nan := by
  induction l generalizing a with
  | nil => cases hx
  | cons y l ih =>
    rw [List.foldl_cons]
    rcases List.mem_cons.mp hx with rfl | hx
    · rw [hh, foldl_nan_absorb f hf]
    · exact ih hx _

/-- one step of the filter with NaN as mark: a number comes out only if numbers go in -/
theorem firGate_nan {D : Dialect XR} {chk : Bool} {R : Ray XR} (hb : R.bad = .nan) {sd : Buf XR} {yz r : Buf XR × Buf XR} {i : Int}
    (e : firGate D chk R sd yz i = .ok r) : (∀ j, r.2.mem j = yz.2.mem j) ∧ (∀ j, j ≠ i → r.1.mem j = yz.1.mem j) ∧
      (r.1.mem i ≠ .nan → r.1.mem i = yz.1.mem i ∨ ∀ j, i - R.half ≤ j → j ≤ i + R.half → yz.2.mem j ≠ .nan) := by
  have hz : ∀ j, r.2.mem j = yz.2.mem j := fun j => firGate_z e (by rw [hb]; simp)
  refine ⟨hz, fun j hj => firGate_y e (.inl hj), fun hn => ?_⟩
  rcases firGate_cases e with rfl | ⟨pts, z, A, -, -, -, -, -, hA, rfl⟩
  · exact .inl rfl
  · right
    intro j j0 j1 hj
    apply hn
    have hzj : z.mem j = .nan := by rw [← hj, ← hz j]
    simp only [if_true]
    rw [firSum_val hA]
    simp only [wx, XR.ff32]
    rw [foldl_nan_hit _ (by simp) _ j (by rw [mem_rangeI]; omega) (by intro a; rw [hzj]; simp)]
    simp

/-- the invariant of the filter: a gate filtered to a number has numbers in its window -/
def Inv (R : Ray XR) (f : Int → XR) (y : Buf XR) : Prop :=
  ∀ i : Int, 0 ≤ i → i < R.n → y.mem i ≠ .nan → R.half ≤ i ∧ i < (R.n : Int) - R.half ∧ ∀ j, i - R.half ≤ j → j ≤ i + R.half → f j ≠ .nan

theorem firPass_nan {D : Dialect XR} {chk : Bool} {R : Ray XR} (hb : R.bad = .nan) {f : Int → XR} {sd : Buf XR} {yz r : Buf XR × Buf XR}
    (e : firPass D chk R sd yz = .ok r) (hy : Inv R f yz.1) (hz : (∀ j : Int, 0 ≤ j → j < R.n → yz.2.mem j = f j) ∨ yz.2 = yz.1) :
    Inv R f r.1 ∧ r.2 = r.1 := by
  unfold firPass at e
  obtain ⟨w, h, e⟩ := bind_ok e
  cases e
  refine ⟨?_, rfl⟩
  have := foldlM_inv (I := fun s : Buf XR × Buf XR => Inv R f s.1 ∧ ∀ j, s.2.mem j = yz.2.mem j) ⟨hy, fun _ => rfl⟩ (fun s i r hi hs hr => ?_) h
  · exact this.1
  · have hi := mem_rangeI.mp hi
    obtain ⟨a, b, c⟩ := firGate_nan hb hr
    refine ⟨fun k k0 k1 hk => ?_, fun j => by rw [a, hs.2]⟩
    by_cases hki : k = i
    · subst hki
      rcases c hk with c | c
      · exact hs.1 k k0 k1 (by rw [← c]; exact hk)
      · refine ⟨hi.1, hi.2, fun j j0 j1 => ?_⟩
        rcases hz with hz | hz
        · rw [← hz j (by omega) (by omega), ← hs.2 j]; exact c j j0 j1
        · have := c k (by omega) (by omega)
          rw [hs.2, hz] at this
          exact (hy k k0 k1 this).2.2 j j0 j1
    · exact hs.1 k k0 k1 (by rw [← b k hki]; exact hk)

theorem firPasses_nan {D : Dialect XR} {chk : Bool} {R : Ray XR} (hb : R.bad = .nan) {f : Int → XR} {sd : Buf XR} (k : Nat) {yz r : Buf XR × Buf XR}
    (e : firPasses D chk R sd k yz = .ok r) (hy : Inv R f yz.1) (hz : (∀ j : Int, 0 ≤ j → j < R.n → yz.2.mem j = f j) ∨ yz.2 = yz.1) :
    k = 0 ∨ Inv R f r.2 := by
  induction k generalizing yz with
  | zero => exact .inl rfl
  | succ k ih =>
    right
    unfold firPasses at e
    obtain ⟨w, h1, h2⟩ := bind_ok e
    obtain ⟨a, b⟩ := firPass_nan hb h1 hy hz
    rcases ih h2 a (.inr b) with rfl | h
    · cases h2; rw [b]; exact a
    · exact h

/-- a fit through a sample without phase is no line -/
theorem lse_nan {D : Dialect XR} (hD : D = cython ∨ D = fortran) {pts : List (XR × XR)} {ab : XR × XR} (e : lse D .nan pts = .ok ab)
    (p : XR × XR) (hp : p ∈ pts) (hn : p.2 = .nan) (hs : D.skip .nan p.1 = false) : ab.1 = .nan := by
  have hsk : D.skip .nan .nan = false := by rcases hD with rfl | rfl <;> simp [cython, fortran]
  have hy : (lseSums D .nan pts).y = .nan := by
    clear e
    unfold lseSums
    generalize (⟨f32 (PyFloat.ofNat pts.length), 0.0, 0.0, 0.0, 0.0⟩ : Sums XR) = s
    have absorb : ∀ (l : List (XR × XR)) (s : Sums XR), s.y = .nan → (l.foldl (lseStep D .nan) s).y = .nan := by
      intro l
      induction l with
      | nil => intro s h; exact h
      | cons q l ih =>
        intro s h
        rw [List.foldl_cons]
        refine ih _ ?_
        unfold lseStep
        split
        · exact h
        · simp [h]
    induction pts generalizing s with
    | nil => cases hp
    | cons q l ih =>
      rw [List.foldl_cons]
      rcases List.mem_cons.mp hp with rfl | hp
      · refine absorb _ _ ?_
        unfold lseStep
        rw [hn, hsk, hs]
        simp
      · exact ih hp _
  unfold lse at e
  dsimp only at e
  split at e
  · cases e
  · cases e
    simp [hy]


/-- **C149**, NaN as mark, KDP, both kernels, any number of passes: no gap is tolerated.  A gate gets a filtered phase only if its whole filter window lies on the
ray and has phases, and (reflectivity present, window width `w`) a KDP only if all gates of its window lie on the ray and have a filtered phase. -/
theorem C149_kdp_nan_partial (D : Dialect XR) (chk : Bool) (R : Ray XR) (hD : D = cython ∨ D = fortran ∧ ∀ j : Int, (R.rng.mem j >. 1e35) = false)
    (hb : R.bad = .nan) (hnf : 0 < R.nf) (out : RayOut XR) (e : calcKdpRayFir D chk R = .ok out) (i : Nat) (hi : i < R.n) :
    (∀ v, out.dp[i]? = some v → v ≠ .nan → R.order / 2 ≤ i ∧ i + R.order / 2 < R.n ∧
      ∀ j : Nat, i ≤ j + R.order / 2 → j ≤ i + R.order / 2 → R.dp.mem j ≠ .nan) ∧
    (∀ v w, out.kd[i]? = some v → v ≠ .nan → Width R (R.dz.mem i) w → w / 2 ≤ i ∧ i + w / 2 < R.n ∧
      ∀ j : Nat, i ≤ j + w / 2 → j < i + w / 2 → ∃ p, out.dp[j]? = some p ∧ p ≠ .nan) := by
  obtain ⟨yz, r⟩ := calc_run e
  have hD' : D = cython ∨ D = fortran := hD.imp id And.left
  constructor
  · intro v hv hn
    have h1 : i < out.dp.length := by rw [r.dpLen]; exact hi
    rw [List.getElem?_eq_getElem h1, r.dp i h1] at hv
    cases hv
    have hinv := firPasses_nan hb (f := R.dp.mem) R.nf r.passes (fun k k0 k1 hk => by
        obtain ⟨q, rfl⟩ : ∃ q : Nat, k = q := ⟨k.toNat, by omega⟩
        dsimp only at hk
        rw [ofList_get _ _ q (by simp; omega)] at hk
        exact absurd (by simp [hb]) hk)
      (.inl fun j j0 j1 => ofList_map_gates _ _ j0 j1)
    rcases hinv with h | hinv
    · omega
    · obtain ⟨a, b, c⟩ := hinv i (by omega) (by omega) hn
      have hh : (R.half : Int) = ((R.order / 2 : Nat) : Int) := rfl
      exact ⟨by omega, by omega, fun j j0 j1 => c j (by omega) (by omega)⟩
  · intro v w hv hn hw
    have hfit : ¬ (i < w / 2 ∨ R.n ≤ i + w / 2) := fun hc => by
      have := (C12_window_slope D hD' chk R out e i hi (by rw [hb]; simp) w hw).1 hc
      rw [this, hb] at hv
      cases hv
      exact hn rfl
    push Not at hfit
    refine ⟨hfit.1, hfit.2, fun j j0 j1 => ?_⟩
    have h1 : i < out.kd.length := by rw [r.kdLen]; exact hi
    obtain ⟨m1, m2, g⟩ := r.kd i h1
    rw [List.getElem?_eq_getElem h1] at hv
    cases hv
    have hj : j < out.dp.length := by rw [r.dpLen]; omega
    refine ⟨out.dp[j], List.getElem?_eq_getElem hj, fun hc => hn ?_⟩
    rw [r.dp j hj] at hc
    unfold kdpGate at g
    obtain ⟨d, hd, g⟩ := bind_ok g
    have hdv := rd_val hd
    subst hdv
    rw [if_pos (by rw [hb]; simp)] at g
    simp only [nadpOf_width hw] at g
    have hcast : ((w : Int) / 2) = ((w / 2 : Nat) : Int) := by omega
    rw [hcast, if_pos (by omega)] at g
    obtain ⟨pts, hp, g⟩ := bind_ok g
    split at g
    · obtain ⟨ab, hl, g⟩ := bind_ok g
      rw [hb] at hl
      have hE : 0 ≤ D.winEnd := by rcases hD' with rfl | rfl <;> simp [cython, fortran]
      have hmem : (R.rng.mem j, yz.2.mem j) ∈ pts := by
        rw [kdpCollect_val hp]
        refine List.mem_map.mpr ⟨j, List.mem_filter.mpr ⟨by rw [mem_rangeI]; omega, by rw [hb]; simp⟩, rfl⟩
      have := lse_nan hD' hl _ hmem hc (by
        rcases hD with rfl | ⟨rfl, hr⟩
        · simp [cython]
        · exact hr j)
      injection g with g
      injection g with g1 g2
      rw [← g1, this]
      simp
    · injection g with g
      injection g with g1 g2
      rw [← g1, hb]

/-- the hypotheses can be met: a ray without gaps, NaN as mark, gets KDP; with a gap marked NaN it gets none near it -/
example : (calcKdpRayFir cython true (marked (gapRay 0) (fun j => some (.q (2 * j))) markD .nan)).toOption.map (fun o => (o.dp[4]?, o.kd[4]?)) =
      some (some (.q 8), some 1) ∧
    (calcKdpRayFir cython true (marked (gapRay 0) markX markD .nan)).toOption.map (fun o => (o.dp[4]?, o.kd[4]?)) = some (some .nan, some .nan) := by
  decide +kernel

/-- the result that all but finitely many marks give, at the gap and next to it -/
example : (calcKdpRayFir cython true (marked (gapRay 0) markX markD (.q (-9999)))).toOption.map (fun o => (o.dp[4]?, o.kd[4]?, o.kd[0]?)) =
      some (some (.q 8), some 1, some (.q (-9999))) ∧
    (calcKdpRayFir cython true (marked (gapRay 0) markX markD (.q 777))).toOption.map (fun o => (o.dp[4]?, o.kd[4]?, o.kd[0]?)) =
      some (some (.q 8), some 1, some (.q 777)) := by decide +kernel

end Csu.Kdp
