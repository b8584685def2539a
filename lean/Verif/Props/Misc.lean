import Verif.Lemmas.Misc
import Verif.QFloat
import Verif.XReal
/-!
# Properties C01 - C06: `csu_misc.py`

Generic theorems hold for every `PyFloat α` (so for IEEE floats with NaN).
-/
namespace Csu.Misc
open Csu PyFloat
variable {α : Type} [PyFloat α]

/-! ## C01 -/

/-- **C01.** With enough ranges the filter returns a mask of the input's length that is True at gate `i` exactly when
the supplied mask (or, without one, `dz == bad or zdr == bad`) says so, or when the gate falls in a range of the table
with `zdr` at or above the threshold of the same index. -/
theorem C01_insect_filter_exact (dz zdr : List α) (mask : Option (List Bool)) (dzRange : List (α × α))
    (drThresh : List α) (bad : α) (hlen : dz.length = zdr.length)
    (hmask : ∀ m, mask = some m → m.length = dz.length) (hr : drThresh.length ≤ dzRange.length) :
    ∃ out, insectFilter dz zdr mask dzRange drThresh bad = .ok out ∧ out.length = dz.length ∧
      ∀ (i : Nat) (d z : α), dz[i]? = some d → zdr[i]? = some z →
        (out[i]? = some true ↔
          (match mask with
            | some m => m[i]? = some true
            | none => (d ==. bad) = true ∨ (z ==. bad) = true) ∨
          ∃ (k : Nat) (lo hi t : α), dzRange[k]? = some (lo, hi) ∧ drThresh[k]? = some t ∧
            (lo <. d) = true ∧ (d <=. hi) = true ∧ (t <=. z) = true) := by
  obtain ⟨cs, hcs, hl, hspec⟩ := insectConds_ok dz zdr dzRange drThresh 0 hlen (by omega)
  have hm : (genericMask dz zdr mask bad).length = dz.length := by
    cases mask with
    | none => simp [genericMask, logicalOr, hlen]
    | some m => exact hmask m rfl
  obtain ⟨h1, h2⟩ := foldl_or cs (genericMask dz zdr mask bad) (by intro c hc; rw [hm]; exact hl c hc)
  refine ⟨_, by simp [insectFilter, hcs]; rfl, by rw [h1, hm], ?_⟩
  intro i d z hd hz
  rw [h2, hspec]
  apply or_congr
  · cases mask with
    | some m => rfl
    | none =>
      simp only [genericMask]
      rw [logicalOr_get _ _ (by simp [hlen])]
      simp [hd, hz]
  · constructor
    · rintro ⟨k, lo, hi, t, d', z', h1, h2, h3, h4, h5, h6, h7⟩
      rw [hd] at h3; cases h3
      rw [hz] at h4; cases h4
      exact ⟨k, lo, hi, t, by simpa using h2, h1, h5, h6, h7⟩
    · rintro ⟨k, lo, hi, t, h1, h2, h3, h4, h5⟩
      exact ⟨k, lo, hi, t, d, z, h2, by simpa using h1, hd, hz, h3, h4, h5⟩

/-- **C01**, error branch: fewer ranges than thresholds raises IndexError whatever the data. -/
theorem C01_insect_filter_index_error (dz zdr : List α) (mask : Option (List Bool)) (dzRange : List (α × α))
    (drThresh : List α) (bad : α) (hr : dzRange.length < drThresh.length) :
    insectFilter dz zdr mask dzRange drThresh bad = .error .indexError := by
  simp only [insectFilter, insectConds_err dz zdr dzRange drThresh 0 (by omega) (by omega)]
  rfl

/-- **C01**: ranges beyond the number of thresholds are ignored. -/
theorem C01_surplus_ranges_ignored (dz zdr : List α) (mask : Option (List Bool)) (dzRange extra : List (α × α))
    (drThresh : List α) (bad : α) (hr : drThresh.length ≤ dzRange.length) :
    insectFilter dz zdr mask (dzRange ++ extra) drThresh bad = insectFilter dz zdr mask dzRange drThresh bad := by
  have : ∀ (ths : List α) (i : Nat), i + ths.length ≤ dzRange.length →
      insectConds dz zdr (dzRange ++ extra) i ths = insectConds dz zdr dzRange i ths := by
    intro ths
    induction ths with
    | nil => intros; rfl
    | cons t ths ih =>
      intro i h
      simp only [List.length_cons] at h
      have hi : i < dzRange.length := by omega
      simp only [insectConds, insectCond, List.getElem?_append_left hi, ih (i + 1) (by omega)]
  simp only [insectFilter, this drThresh 0 (by omega)]

/-- The default tables meet the hypothesis, and a concrete call flags what it should: weak insects (dz 12, zdr 1.3),
not rain (dz 12, zdr 1.2), the bad gate, not NaN. -/
example : insectFilter (α := QF) [12, 12, -32768, .nan, 40] [1.3, 1.2, 0, 5, 9] none defaultDzRange defaultDrThresh
    (-32768) = .ok [true, false, true, false, false] := by decide +kernel
example : (defaultDrThresh (α := QF)).length ≤ (defaultDzRange (α := QF)).length := by decide
example : insectFilter (α := QF) [12] [1.3] (some [false]) [(-100, 10)] defaultDrThresh (-32768)
    = .error .indexError := by decide +kernel

/-! ## C02 -/

/-- Specification of C02: the Zdr threshold that applies at reflectivity `d` under the default tables. -/
noncomputable def defaultZdrThreshold (d : ℝ) : ℝ :=
  if d ≤ 10 then 1 else if d ≤ 15 then 1.3 else if d ≤ 20 then 1.7 else if d ≤ 25 then 2.1
  else if d ≤ 30 then 2.5 else 2.8

open XR in
/-- **C02.** Default tables, finite reflectivity and differential reflectivity, no bad value: the gate is flagged iff
`-100 < dz <= 35` and `zdr` is at least the threshold of that reflectivity (or the supplied mask flags it). -/
theorem C02_default_insect_exact (dz zdr : List XR) (mask : Option (List Bool)) (bad : XR)
    (hlen : dz.length = zdr.length) (hmask : ∀ m, mask = some m → m.length = dz.length) :
    ∃ out, insectFilter dz zdr mask defaultDzRange defaultDrThresh bad = .ok out ∧
      ∀ (i : Nat) (d z : ℝ), dz[i]? = some (fin d) → zdr[i]? = some (fin z) →
        (fin d ==. bad) = false → (fin z ==. bad) = false →
        (out[i]? = some true ↔ (∃ m, mask = some m ∧ m[i]? = some true) ∨
          (-100 < d ∧ d ≤ 35 ∧ defaultZdrThreshold d ≤ z)) := by
  obtain ⟨out, h1, h2, h3⟩ := C01_insect_filter_exact dz zdr mask defaultDzRange defaultDrThresh bad hlen hmask
    (by simp [defaultDzRange, defaultDrThresh])
  refine ⟨out, h1, ?_⟩
  intro i d z hd hz hb1 hb2
  rw [h3 i _ _ hd hz]
  apply or_congr
  · cases mask <;> simp [hb1, hb2]
  · have hk : ∀ k : Nat, (k = 0 ∨ k = 1 ∨ k = 2 ∨ k = 3 ∨ k = 4 ∨ k = 5) ∨ 6 ≤ k := by omega
    simp only [defaultDzRange, defaultDrThresh, defaultZdrThreshold]
    constructor
    · rintro ⟨k, lo, hi, t, e1, e2, e3, e4, e5⟩
      rcases hk k with (rfl | rfl | rfl | rfl | rfl | rfl) | hk
      all_goals first
        | (simp only [List.getElem?_cons_zero, List.getElem?_cons_succ, Option.some.injEq, Prod.mk.injEq] at e1 e2
           obtain ⟨rfl, rfl⟩ := e1
           subst e2
           simp only [fsci, fneg, foflit, fone, flt, fle, decide_eq_true_eq] at e3 e4 e5
           refine ⟨by linarith, by linarith, ?_⟩
           split_ifs <;> linarith)
        | (rw [List.getElem?_eq_none_iff.mpr (by simpa using hk)] at e1; simp at e1)
    · rintro ⟨e1, e2, e3⟩
      split_ifs at e3
      · exact ⟨0, _, _, _, rfl, rfl, by simp; linarith, by simp; linarith, by simp; linarith⟩
      · exact ⟨1, _, _, _, rfl, rfl, by simp; linarith, by simp; linarith, by simp; linarith⟩
      · exact ⟨2, _, _, _, rfl, rfl, by simp; linarith, by simp; linarith, by simp; linarith⟩
      · exact ⟨3, _, _, _, rfl, rfl, by simp; linarith, by simp; linarith, by simp; linarith⟩
      · exact ⟨4, _, _, _, rfl, rfl, by simp; linarith, by simp; linarith, by simp; linarith⟩
      · exact ⟨5, _, _, _, rfl, rfl, by simp; linarith, by simp; linarith, by simp; linarith⟩

/-- **C02**: the threshold never decreases with reflectivity. -/
theorem C02_threshold_monotone (d e : ℝ) (h : d ≤ e) : defaultZdrThreshold d ≤ defaultZdrThreshold e := by
  unfold defaultZdrThreshold
  split_ifs <;> linarith

/-- **C02**: a supplied mask is always contained in the result (any tables, any floats). -/
theorem C02_mask_contained (dz zdr : List α) (m : List Bool) (dzRange : List (α × α)) (drThresh : List α) (bad : α)
    (hlen : dz.length = zdr.length) (hm : m.length = dz.length) (hr : drThresh.length ≤ dzRange.length) :
    ∃ out, insectFilter dz zdr (some m) dzRange drThresh bad = .ok out ∧
      ∀ i : Nat, m[i]? = some true → out[i]? = some true := by
  obtain ⟨out, h1, h2, h3⟩ := C01_insect_filter_exact dz zdr (some m) dzRange drThresh bad hlen
    (by intro m' h; cases h; exact hm) hr
  refine ⟨out, h1, fun i hi => ?_⟩
  have hil : i < m.length := by
    by_contra h; rw [List.getElem?_eq_none_iff.mpr (by omega)] at hi; simp at hi
  exact (h3 i _ _ (List.getElem?_eq_getElem (by omega)) (List.getElem?_eq_getElem (by omega))).mpr (.inl hi)

example : defaultZdrThreshold 10 = 1 ∧ defaultZdrThreshold 10.5 = 1.3 ∧ defaultZdrThreshold 35 = 2.8 := by
  unfold defaultZdrThreshold; norm_num

/-! ## C03 -/

/-- **C03.** The second-trip filter flags exactly the gates whose velocity equals `bad`, gate by gate. -/
theorem C03_second_trip_exact (vr : List α) (bad : α) (i : Nat) (v : α) (h : vr[i]? = some v) :
    (secondTripFilter vr bad).length = vr.length ∧
    ((secondTripFilter vr bad)[i]? = some true ↔ (v ==. bad) = true) := by
  simp [secondTripFilter, h]

/-- **C03.** The phase filter flags exactly `sdp > thresh`, scalar threshold. -/
theorem C03_phase_exact (sdp : List α) (t : α) (i : Nat) (v : α) (h : sdp[i]? = some v) :
    (diffPhaseFilter sdp t).length = sdp.length ∧
    ((diffPhaseFilter sdp t)[i]? = some true ↔ (t <. v) = true) := by
  simp [diffPhaseFilter, h, PyFloat.gt]

/-- **C03.** The phase filter with one threshold per gate; a constant threshold array acts as the scalar one. -/
theorem C03_phase_array_exact (sdp ts : List α) (hl : sdp.length = ts.length) (i : Nat) (v t : α)
    (h : sdp[i]? = some v) (ht : ts[i]? = some t) :
    (diffPhaseFilterArr sdp ts).length = sdp.length ∧
    ((diffPhaseFilterArr sdp ts)[i]? = some true ↔ (t <. v) = true) ∧
    diffPhaseFilterArr sdp (List.replicate sdp.length t) = diffPhaseFilter sdp t := by
  refine ⟨by simp [diffPhaseFilterArr, hl], by simp [diffPhaseFilterArr, List.getElem?_zipWith, h, ht, PyFloat.gt], ?_⟩
  clear h ht hl ts
  simp only [diffPhaseFilterArr, diffPhaseFilter]
  induction sdp with
  | nil => rfl
  | cons x xs ih => simpa [List.replicate_succ] using ih

/-- **C03.** NaN is never flagged by either filter. -/
theorem C03_nan_passes (l : List XR) (t : XR) (i : Nat) (h : l[i]? = some .nan) :
    (secondTripFilter l t)[i]? = some false ∧ (diffPhaseFilter l t)[i]? = some false := by
  simp [secondTripFilter, diffPhaseFilter, h]

example : secondTripFilter (α := QF) [1, -32768, .nan] (-32768) = [false, true, false] ∧
    diffPhaseFilter (α := QF) [11, 12, 13, .nan] 12 = [false, false, true, false] := by decide +kernel

/-! ## C04 -/

/-- Specification: gate `i` of the ray lies among `n + 1` consecutive gates none of which equals `bad`. -/
def InLongRun (data : List α) (bad : α) (n : Nat) (i : Nat) : Prop :=
  ∃ s : Nat, s ≤ i ∧ i ≤ s + n ∧ ∀ j : Nat, s ≤ j → j ≤ s + n → ∃ x, data[j]? = some x ∧ (x ==. bad) = false

theorem inLongRun_iff (data : List α) (bad : α) (n : Int) (i : Nat) :
    (despeckle1 data bad n)[i]? = some false ↔ InLongRun data bad n.toNat i := by
  rw [despeckle1, despeckleRay_keep]
  have : ∀ j : Nat, (goodGates data bad)[j]? = some true ↔ ∃ x, data[j]? = some x ∧ (x ==. bad) = false := by
    intro j; simp [goodGates]
  simp only [this, InLongRun]

/-- **C04.** 1-D: the mask has the ray's length, and is False exactly inside runs of more than `ngates` good gates
(a negative `ngates` acts as 0). -/
theorem C04_despeckle_ray (data : List α) (bad : α) (ngates : Int) :
    (despeckle1 data bad ngates).length = data.length ∧
    ∀ i < data.length, ((despeckle1 data bad ngates)[i]? = some false ↔ InLongRun data bad ngates.toNat i) ∧
      ((despeckle1 data bad ngates)[i]? = some true ↔ ¬ InLongRun data bad ngates.toNat i) := by
  have hl : (despeckle1 data bad ngates).length = data.length := by
    rw [despeckle1, despeckleRay_length]; simp [goodGates]
  refine ⟨hl, fun i hi => ⟨inLongRun_iff data bad ngates i, ?_⟩⟩
  rw [← inLongRun_iff]
  have h : i < (despeckle1 data bad ngates).length := by omega
  rw [List.getElem?_eq_getElem h]
  simp

theorem rows_length {β : Type} (w : Nat) : ∀ (n : Nat) (l : List β), (rows w n l).length = n
  | 0, _ => rfl
  | n + 1, l => by simp [rows, rows_length w n]

theorem rows_get {β : Type} (w : Nat) : ∀ (n : Nat) (l : List β) (r : Nat), r < n →
    (rows w n l)[r]? = some ((l.drop (r * w)).take w)
  | 0, _, _, h => by omega
  | n + 1, l, 0, _ => by simp [rows]
  | n + 1, l, r + 1, h => by
    simp only [rows, List.getElem?_cons_succ]
    rw [rows_get w n _ r (by omega), List.drop_drop]
    congr 3; rw [Nat.add_mul]; omega

theorem flatten_rows_get {β γ : Type} (w : Nat) (f : List β → List γ) (hf : ∀ x, (f x).length = x.length) :
    ∀ (n : Nat) (l : List β) (r c : Nat), l.length = n * w → r < n → c < w →
    ((rows w n l).map f).flatten[r * w + c]? = (f ((l.drop (r * w)).take w))[c]?
  | 0, _, _, _, _, h, _ => by omega
  | n + 1, l, 0, c, hl, _, hc => by
    rw [Nat.add_mul] at hl
    simp only [rows, List.map_cons, List.flatten_cons, Nat.zero_mul, List.drop_zero, Nat.zero_add]
    rw [List.getElem?_append_left]
    rw [hf, List.length_take]; omega
  | n + 1, l, r + 1, c, hl, h, hc => by
    rw [Nat.add_mul] at hl
    simp only [rows, List.map_cons, List.flatten_cons]
    have h1 : (f (l.take w)).length = w := by rw [hf, List.length_take]; omega
    rw [List.getElem?_append_right (by rw [h1, Nat.add_mul]; omega), h1]
    have h2 : (r + 1) * w + c - w = r * w + c := by rw [Nat.add_mul]; omega
    rw [h2, flatten_rows_get w f hf n _ r c (by simp; omega) (by omega) hc, List.drop_drop]
    congr 4; rw [Nat.add_mul]; omega

/-- **C04.** 2-D `n x w` data: the mask keeps the shape and its row `r` is the mask of row `r` taken as a ray. -/
theorem C04_despeckle_2d (data : NdArray α) (bad : α) (ngates : Int) (n w : Nat)
    (hs : data.shape = [n, w]) (hw : data.WF) :
    ∃ m, despeckle (.arr data) bad ngates = .ok (some m) ∧ m.shape = data.shape ∧
      ∀ r < n, ∀ c < w, m.data[r * w + c]? = (despeckle1 ((data.data.drop (r * w)).take w) bad ngates)[c]? := by
  refine ⟨⟨.int, data.shape, (despeckle2 (rows w n data.data) bad ngates).flatten⟩,
    by simp only [despeckle, hs], rfl, ?_⟩
  intro r hr c hc
  have hd : data.data.length = n * w := by simpa [NdArray.WF, hs] using hw
  exact flatten_rows_get w (fun row => despeckle1 row bad ngates) (fun x => (C04_despeckle_ray x bad ngates).1)
    n data.data r c hd hr hc

/-- **C04.** 1-D arrays are handled as one ray, scalars and more than two dimensions return `None`; a 0-d array raises. -/
theorem C04_despeckle_dispatch (data : NdArray α) (t : DType) (x bad : α) (ngates : Int) :
    (∀ n, data.shape = [n] → despeckle (.arr data) bad ngates = .ok (some ⟨.int, [n], despeckle1 data.data bad ngates⟩)) ∧
    (3 ≤ data.shape.length → despeckle (.arr data) bad ngates = .ok none) ∧
    (data.shape = [] → despeckle (.arr data) bad ngates = .error .typeError) ∧
    despeckle (.scalar t x) bad ngates = .ok none := by
  refine ⟨fun n h => by simp [despeckle, h], fun h1 => ?_, fun h => by simp [despeckle, h], rfl⟩
  match hs : data.shape with
  | [] => simp [hs] at h1
  | [_] => simp [hs] at h1
  | [_, _] => simp [hs] at h1
  | _ :: _ :: _ :: _ => simp [despeckle, hs]

/-- runs of 2, 1 and 3 good gates with `ngates = 2`: only the run of 3 survives -/
example : despeckle1 (α := QF) [5, 6, 0, 7, 0, 1, 2, 3] 0 2 = [true, true, true, true, true, false, false, false] := by
  decide +kernel
example : (⟨.float, [2, 3], [1, 1, 1, 1, 0, 1]⟩ : NdArray QF).WF := by decide
example : (despeckle (α := QF) (.arr ⟨.float, [2, 3], [1, 1, 1, 1, 0, 1]⟩) 0 1).toOption =
    some (some ⟨.int, [2, 3], [false, false, false, true, true, true]⟩) := by decide +kernel

/-! ## C05 -/

/-- what a user does with the mask: blank the flagged gates -/
def blank (data : List α) (bad : α) (mask : List Bool) : List α :=
  List.zipWith (fun m x => if m then bad else x) mask data

/-- **C05.** Idempotence: despeckling the blanked ray returns the same mask. -/
theorem C05_idempotent (data : List α) (bad : α) (n : Int) (hb : (bad ==. bad) = true) :
    despeckle1 (blank data bad (despeckle1 data bad n)) bad n = despeckle1 data bad n := by
  obtain ⟨hl, hk⟩ := C04_despeckle_ray data bad n
  set m := despeckle1 data bad n with hm
  have hlb : (blank data bad m).length = data.length := by simp [blank, hl]
  obtain ⟨hl2, hk2⟩ := C04_despeckle_ray (blank data bad m) bad n
  apply List.ext_getElem?
  intro i
  rcases Nat.lt_or_ge i data.length with hi | hi
  swap
  · rw [List.getElem?_eq_none_iff.mpr (by omega), List.getElem?_eq_none_iff.mpr (by omega)]
  have hget : ∀ (j : Nat) (x : α), (blank data bad m)[j]? = some x → (x ==. bad) = false →
      m[j]? = some false ∧ data[j]? = some x := by
    intro j x hx hxb
    simp only [blank, List.getElem?_zipWith] at hx
    cases h1 : m[j]? <;> cases h2 : data[j]? <;> simp [h1, h2] at hx
    rename_i b y
    cases b with
    | true => simp at hx; subst hx; simp [hb] at hxb
    | false => simp at hx; simp [hx]
  have hiff : InLongRun (blank data bad m) bad n.toNat i ↔ InLongRun data bad n.toNat i := by
    constructor
    · rintro ⟨s, h1, h2, h3⟩
      refine ⟨s, h1, h2, fun j hj1 hj2 => ?_⟩
      obtain ⟨x, hx, hxb⟩ := h3 j hj1 hj2
      exact ⟨x, (hget j x hx hxb).2, hxb⟩
    · rintro ⟨s, h1, h2, h3⟩
      refine ⟨s, h1, h2, fun j hj1 hj2 => ?_⟩
      obtain ⟨x, hx, hxb⟩ := h3 j hj1 hj2
      have hjm : m[j]? = some false := (inLongRun_iff data bad n j).mpr ⟨s, hj1, hj2, h3⟩
      exact ⟨x, by simp [blank, List.getElem?_zipWith, hjm, hx], hxb⟩
  have hib : i < (blank data bad m).length := by omega
  by_cases hrun : InLongRun data bad n.toNat i
  · rw [((hk2 i hib).1).mpr (hiff.mpr hrun), ((hk i hi).1).mpr hrun]
  · rw [((hk2 i hib).2).mpr (fun h => hrun (hiff.mp h)), ((hk i hi).2).mpr hrun]

/-- **C05.** A larger `ngates` flags at least as much. -/
theorem C05_monotone (data : List α) (bad : α) (n n' : Int) (h : n ≤ n') (i : Nat) (hi : i < data.length)
    (hf : (despeckle1 data bad n)[i]? = some true) : (despeckle1 data bad n')[i]? = some true := by
  rw [((C04_despeckle_ray data bad n).2 i hi).2] at hf
  rw [((C04_despeckle_ray data bad n').2 i hi).2]
  rintro ⟨s, h1, h2, h3⟩
  exact hf ⟨max s (i - n.toNat), by omega, by omega, fun j hj1 hj2 => h3 j (by omega) (by omega)⟩

/-- **C05.** Reversing the ray reverses the mask. -/
theorem C05_reverse (data : List α) (bad : α) (n : Int) :
    despeckle1 data.reverse bad n = (despeckle1 data bad n).reverse := by
  obtain ⟨hl, hk⟩ := C04_despeckle_ray data bad n
  obtain ⟨hl2, hk2⟩ := C04_despeckle_ray data.reverse bad n
  rw [List.length_reverse] at hl2 hk2
  apply List.ext_getElem?
  intro i
  rcases Nat.lt_or_ge i data.length with hi | hi
  swap
  · rw [List.getElem?_eq_none_iff.mpr (by omega), List.getElem?_eq_none_iff.mpr (by simp; omega)]
  rw [List.getElem?_reverse (by omega), hl]
  have hi2 : data.length - 1 - i < data.length := by omega
  have hiff : InLongRun data.reverse bad n.toNat i ↔ InLongRun data bad n.toNat (data.length - 1 - i) := by
    have lenOf : ∀ (l : List α) (j : Nat) (x : α), l[j]? = some x → j < l.length := by
      intro l j x h
      by_contra hc; rw [List.getElem?_eq_none_iff.mpr (by omega)] at h; simp at h
    constructor
    · rintro ⟨s, h1, h2, h3⟩
      have hend : s + n.toNat < data.length := by
        obtain ⟨x, hx, _⟩ := h3 (s + n.toNat) (by omega) (by omega)
        simpa using lenOf _ _ _ hx
      refine ⟨data.length - 1 - (s + n.toNat), by omega, by omega, fun j hj1 hj2 => ?_⟩
      obtain ⟨x, hx, hxb⟩ := h3 (data.length - 1 - j) (by omega) (by omega)
      refine ⟨x, ?_, hxb⟩
      rw [List.getElem?_reverse (by omega)] at hx
      rw [← hx]; congr 1; omega
    · rintro ⟨s, h1, h2, h3⟩
      have hend : s + n.toNat < data.length := by
        obtain ⟨x, hx, _⟩ := h3 (s + n.toNat) (by omega) (by omega)
        exact lenOf _ _ _ hx
      refine ⟨data.length - 1 - (s + n.toNat), by omega, by omega, fun j hj1 hj2 => ?_⟩
      obtain ⟨x, hx, hxb⟩ := h3 (data.length - 1 - j) (by omega) (by omega)
      refine ⟨x, ?_, hxb⟩
      rw [List.getElem?_reverse (by omega)]; exact hx
  by_cases hrun : InLongRun data bad n.toNat (data.length - 1 - i)
  · rw [((hk2 i hi).1).mpr (hiff.mpr hrun), ((hk _ hi2).1).mpr hrun]
  · rw [((hk2 i hi).2).mpr (fun h => hrun (hiff.mp h)), ((hk _ hi2).2).mpr hrun]

/-- **C05.** Bad gates are flagged for every `ngates`; `ngates <= 0` flags only them. -/
theorem C05_bad_flagged (data : List α) (bad : α) (n : Int) (i : Nat) (x : α) (hx : data[i]? = some x) :
    ((x ==. bad) = true → (despeckle1 data bad n)[i]? = some true) ∧
    (n ≤ 0 → (despeckle1 data bad n)[i]? = some (x ==. bad)) := by
  have hi : i < data.length := by
    by_contra hc; rw [List.getElem?_eq_none_iff.mpr (by omega)] at hx; simp at hx
  have key : (x ==. bad) = true → (despeckle1 data bad n)[i]? = some true := by
    intro hb
    rw [((C04_despeckle_ray data bad n).2 i hi).2]
    rintro ⟨s, h1, h2, h3⟩
    obtain ⟨y, hy, hyb⟩ := h3 i h1 h2
    rw [hx] at hy; cases hy; rw [hb] at hyb; simp at hyb
  refine ⟨key, fun hn => ?_⟩
  cases hb : (x ==. bad) with
  | true => exact key hb
  | false =>
    rw [((C04_despeckle_ray data bad n).2 i hi).1]
    refine ⟨i, by omega, by omega, fun j hj1 hj2 => ?_⟩
    obtain rfl : j = i := by omega
    exact ⟨x, hx, hb⟩

example : ((-32768 : QF) ==. -32768) = true := by decide +kernel
example : blank (α := QF) [5, 6, 0, 7, 0, 1, 2, 3] 0 (despeckle1 (α := QF) [5, 6, 0, 7, 0, 1, 2, 3] 0 2) =
    [0, 0, 0, 0, 0, 1, 2, 3] := by decide +kernel

/-! ## C06 -/

/-- Full statement of C06: a run of exactly `ngates` good gates (`ngates >= 1`) is left unmasked. -/
def DocumentedRunLength (α : Type) [PyFloat α] : Prop :=
  ∀ (data : List α) (bad : α) (n : Nat) (s : Nat), 0 < n →
    (∀ j : Nat, s ≤ j → j < s + n → ∃ x, data[j]? = some x ∧ (x ==. bad) = false) →
    ∀ i : Nat, s ≤ i → i < s + n → (despeckle1 data bad n)[i]? = some false

/-- **C06 is false of the code**: with the default `ngates = 4`, four contiguous good gates are masked. -/
theorem C06_documented_run_length_false : ¬ DocumentedRunLength QF := by
  intro h
  have := h [1, 2, 3, 4, -32768] (-32768) 4 0 (by decide) (by
    intro j _ hj
    have : j = 0 ∨ j = 1 ∨ j = 2 ∨ j = 3 := by omega
    rcases this with rfl | rfl | rfl | rfl
    · exact ⟨1, rfl, by decide +kernel⟩
    · exact ⟨2, rfl, by decide +kernel⟩
    · exact ⟨3, rfl, by decide +kernel⟩
    · exact ⟨4, rfl, by decide +kernel⟩) 0 (by decide) (by decide)
  revert this; decide +kernel

/-- **C06**, the failure is systematic: *every* run of at most `ngates` good gates that is bounded by bad gates or the
ends of the ray is masked; and what does hold is the bound one higher: a run of at least `ngates + 1` good gates is
left unmasked. -/
theorem C06_run_length_partial (data : List α) (bad : α) (n : Nat) (s e : Nat)
    (hrun : ∀ j : Nat, s ≤ j → j < e → ∃ x, data[j]? = some x ∧ (x ==. bad) = false)
    (hleft : s = 0 ∨ ∃ x, data[s - 1]? = some x ∧ (x ==. bad) = true)
    (hright : e = data.length ∨ ∃ x, data[e]? = some x ∧ (x ==. bad) = true) (i : Nat) (h1 : s ≤ i) (h2 : i < e) :
    (despeckle1 data bad n)[i]? = some (decide (e - s ≤ n)) := by
  have lenOf : ∀ (l : List α) (j : Nat) (x : α), l[j]? = some x → j < l.length := by
    intro l j x h
    by_contra hc; rw [List.getElem?_eq_none_iff.mpr (by omega)] at h; simp at h
  have hi : i < data.length := by
    obtain ⟨x, hx, _⟩ := hrun i h1 h2
    exact lenOf _ _ _ hx
  by_cases hle : e - s ≤ n
  · simp only [hle, decide_true]
    rw [((C04_despeckle_ray data bad n).2 i hi).2]
    rintro ⟨a, ha1, ha2, ha3⟩
    simp only [Int.toNat_natCast] at ha2 ha3
    -- the window [a, a+n] has n+1 > e-s gates, so it leaves [s,e)
    rcases Nat.lt_or_ge a s with hlt | hge
    · rcases hleft with h0 | ⟨x, hx, hxb⟩
      · omega
      · obtain ⟨y, hy, hyb⟩ := ha3 (s - 1) (by omega) (by omega)
        rw [hx] at hy; cases hy; rw [hxb] at hyb; simp at hyb
    · have : e ≤ a + n := by omega
      rcases hright with h0 | ⟨x, hx, hxb⟩
      · obtain ⟨y, hy, _⟩ := ha3 (a + n) (by omega) (by omega)
        have := lenOf _ _ _ hy; omega
      · obtain ⟨y, hy, hyb⟩ := ha3 e (by omega) (by omega)
        rw [hx] at hy; cases hy; rw [hxb] at hyb; simp at hyb
  · simp only [hle, decide_false]
    rw [((C04_despeckle_ray data bad n).2 i hi).1]
    simp only [InLongRun, Int.toNat_natCast]
    exact ⟨max s (i - n), by omega, by omega, fun j hj1 hj2 => hrun j (by omega) (by omega)⟩

example : despeckle1 (α := QF) [1, 2, 3, 4, -32768, 1, 2, 3, 4, 5] (-32768) 4 =
    [true, true, true, true, true, false, false, false, false, false] := by decide +kernel

end Csu.Misc
