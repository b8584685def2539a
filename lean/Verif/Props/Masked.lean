import Verif.Model.Masked
import Verif.Props.Fhc3
import Verif.Props.KdpLine
import Verif.Props.Winter
/-! # C141: masked-array arguments -/
namespace Csu.Masked
open Csu PyFloat Tables FhcSpec Fhc

/-! ## Specification -/

/-- the same masked array, as far as a user of masked arrays can tell: same shape, same mask, same values where not masked -/
def SameVisible {α : Type} (a b : MArr α) : Prop :=
  a.arr.shape = b.arr.shape ∧ a.hidden = b.hidden ∧ a.arr.data.length = b.arr.data.length ∧
    ∀ i : Nat, a.hidden[i]? = some false → a.arr.data[i]? = b.arr.data[i]?

/-- the same six measurands up to values under a mask -/
def SameInputs {α : Type} (M N : MInputs α) : Prop :=
  ∀ k, (M.get k = none ∧ N.get k = none) ∨ ∃ a b, M.get k = some a ∧ N.get k = some b ∧ SameVisible a b

/-- the same masked ray up to values under the mask -/
def SameRay {α : Type} (a b : MRay α) : Prop :=
  a.buf.len = b.buf.len ∧ a.hidden = b.hidden ∧ ∀ i : Nat, i < a.buf.len → a.hidden i = false → a.buf.mem i = b.buf.mem i

/-- gate `i` is masked in none of the supplied variables -/
def Visible {α : Type} (M : MInputs α) (i : Nat) : Prop := ∀ k a, M.get k = some a → a.hidden[i]? = some false

/-- **C141, full statement** for `csu_fhc_summer`: values under a mask do not influence the classification. -/
def C141Full : Prop := ∀ (A : SummerArgs XR) (M N : MInputs XR), SameInputs M N → csuFhcSummerM A M = csuFhcSummerM A N

/-- the same for `calc_kdp_bringi` -/
def C141KdpFull : Prop := ∀ (J : Kdp.Junk XR) (dp dp' dz rng : MRay XR) (o : Kdp.KdpOpts XR) (gs window : ℝ), SameRay dp dp' →
  calcKdpBringiM Kdp.fortran J dp dz rng o gs window = calcKdpBringiM Kdp.fortran J dp' dz rng o gs window

/-! ## Gates of masked inputs -/

theorem populate_get {α : Type} (M : MInputs α) (k : Key) : M.populate.get k = (M.get k).map (·.arr) := by
  cases k <;> rfl

/-- only the supplied variables of a gate matter -/
theorem IsGates.restrict {α : Type} [PyFloat α] {I : Inputs α} {P : Key → Bool} {gs : List (Key → α)} (h : IsGates I P gs) :
    IsGates I P (gs.map (fun g k => if P k then g k else PyFloat.nan)) := by
  intro k
  rw [h k]
  split_ifs with hp
  · simp [hp]
  · rfl

/-- the gates of masked inputs whose arrays have the same number of elements -/
theorem masked_gates {α : Type} [PyFloat α] {M N : MInputs α} (hMN : SameInputs M N) (n : Nat)
    (h : ∀ k a, M.get k = some a → a.arr.data.length = n) :
    ∃ gs gs' : List (Key → α), gs.length = n ∧ gs'.length = n ∧
      IsGates M.populate (fun k => (M.get k).isSome) gs ∧ IsGates N.populate (fun k => (M.get k).isSome) gs' ∧
      ∀ i, Visible M i → gs[i]? = gs'[i]? := by
  obtain ⟨P, gs, hn, hg⟩ := exists_gates M.populate n (by
    intro k a e
    rw [populate_get] at e
    cases hk : M.get k with
    | none => rw [hk] at e; cases e
    | some m => rw [hk] at e; cases e; exact h k m hk)
  obtain ⟨P', gs', hn', hg'⟩ := exists_gates N.populate n (by
    intro k a e
    rw [populate_get] at e
    rcases hMN k with ⟨-, e2⟩ | ⟨x, y, e1, e2, hs⟩
    · rw [e2] at e; cases e
    · rw [e2] at e; cases e; rw [← hs.2.2.1]; exact h k x e1)
  have hP : P = fun k => (M.get k).isSome := by
    funext k
    rw [← hg.isSome k, populate_get]; simp
  have hPP : P' = fun k => (M.get k).isSome := by
    funext k
    rw [← hg'.isSome k, populate_get]
    rcases hMN k with ⟨e1, e2⟩ | ⟨x, y, e1, e2, -⟩ <;> rw [e1, e2] <;> rfl
  subst hP
  subst hPP
  refine ⟨_, _, ?_, ?_, IsGates.restrict hg, IsGates.restrict hg', ?_⟩
  · simpa using hn
  · simpa using hn'
  intro i hv
  by_cases hi : i < n
  swap
  · rw [List.getElem?_eq_none (by simp; omega), List.getElem?_eq_none (by simp; omega)]
  have h1 : i < gs.length := by omega
  have h2 : i < gs'.length := by omega
  simp only [List.getElem?_map, List.getElem?_eq_getElem h1, List.getElem?_eq_getElem h2, Option.map_some, Option.some.injEq]
  funext k
  split_ifs with hk
  · rcases hMN k with ⟨e1, e2⟩ | ⟨x, y, e1, e2, hs⟩
    · rw [e1] at hk; cases hk
    · have a1 := hg k
      have a2 := hg' k
      rw [populate_get, e1] at a1
      rw [populate_get, e2] at a2
      simp only [Option.map_some, Option.isSome_some, if_true, Option.some.injEq, e1] at a1 a2
      have := hs.2.2.2 i (hv k x e1)
      rw [a1, a2] at this
      simpa [h1, h2] using this
  · rfl

theorem get?_map_congr {β γ : Type} (f : β → γ) {l l' : List β} {i : Nat} (h : l[i]? = l'[i]?) : (l.map f)[i]? = (l'.map f)[i]? := by
  simp [h]

/-! ## What holds -/

/-- **C141, partial** (any arithmetic): calls that agree on the visible values succeed alike and give the same category at every
gate masked in no variable.  Missing: at gates masked somewhere the values under the mask are classified (`C141_full_false`). -/
theorem C141_visible_gates_partial {α : Type} [PyFloat α] (A : SummerArgs α) (hybrid : Bool) (M N : MInputs α)
    (hMN : SameInputs M N) (n : Nat) (h : ∀ k a, M.get k = some a → a.arr.data.length = n)
    (hA : GoodCall A (fun k => (M.get k).isSome) hybrid) (hn : A.nTypes = 10) (hret : A.returnScores = false)
    (hw : NoZeroWidth α .summer A.band A.tempFactor) :
    ∃ shape r r', csuFhcSummerM A M = .ok (some (.hid shape r)) ∧ csuFhcSummerM A N = .ok (some (.hid shape r')) ∧
      r.length = n ∧ r'.length = n ∧ ∀ i, Visible M i → r[i]? = r'[i]? := by
  obtain ⟨gs, gs', l1, l2, g1, g2, hv⟩ := masked_gates hMN n h
  obtain ⟨sc, cat, hc⟩ := C22_gatewise A _ hybrid hA hn hw
  obtain ⟨dz, d1, e1⟩ := hc _ _ g1
  obtain ⟨dz', d2, e2⟩ := hc _ _ g2
  have hs : dz'.shape = dz.shape := by
    have d1' : M.populate.get .DZ = some dz := d1
    have d2' : N.populate.get .DZ = some dz' := d2
    rw [populate_get] at d1' d2'
    rcases hMN .DZ with ⟨e1, e2⟩ | ⟨x, y, e1, e2, hs⟩
    · rw [e1] at d1'; cases d1'
    · rw [e1] at d1'; rw [e2] at d2'; cases d1'; cases d2'; exact hs.1.symm
  rw [hret] at e1 e2
  rw [hs] at e2
  exact ⟨_, _, _, e1, e2, by simpa using l1, by simpa using l2, fun i hi => get?_map_congr cat (hv i hi)⟩

/-- the shapes of the reflectivities agree -/
theorem dz_shape {α : Type} {M N : MInputs α} (hMN : SameInputs M N) {dz dz' : NdArray α} (d1 : M.populate.dz = some dz)
    (d2 : N.populate.dz = some dz') : dz'.shape = dz.shape := by
  have d1' : M.populate.get .DZ = some dz := d1
  have d2' : N.populate.get .DZ = some dz' := d2
  rw [populate_get] at d1' d2'
  rcases hMN .DZ with ⟨e1, e2⟩ | ⟨x, y, e1, e2, hs⟩
  · rw [e1] at d1'; cases d1'
  · rw [e1] at d1'; rw [e2] at d2'; cases d1'; cases d2'; exact hs.1.symm

/-- the same for the scores of `csu_fhc_winter` -/
theorem C141_visible_winter_partial {α : Type} [PyFloat α] (A : WinterArgs α) (hybrid : Bool) (M N : MInputs α)
    (hMN : SameInputs M N) (n : Nat) (h : ∀ k a, M.get k = some a → a.arr.data.length = n)
    (hA : GoodWinter A (fun k => (M.get k).isSome) hybrid) (hw : NoZeroWidth α .winter A.band A.tempFactor) :
    ∃ (shape : List Nat) (rows rows' : List (List α)), csuFhcWinterM A M = .ok (some (shape, rows)) ∧ csuFhcWinterM A N = .ok (some (shape, rows')) ∧
      rows.length = rows'.length ∧
      ∀ i, Visible M i → ∀ c : Nat, (rows[c]?).map (fun row => row[i]?) = (rows'[c]?).map (fun row => row[i]?) := by
  obtain ⟨gs, gs', l1, l2, g1, g2, hv⟩ := masked_gates hMN n h
  obtain ⟨dz, d1, e1⟩ := winter_gates hA hw g1
  obtain ⟨dz', d2, e2⟩ := winter_gates hA hw g2
  rw [dz_shape hMN d1 d2] at e2
  refine ⟨_, _, _, e1, e2, by simp, fun i hi c => ?_⟩
  simp only [List.getElem?_map, Option.map_map]
  congr 1
  funext t
  simp only [Function.comp, List.getElem?_map, hv i hi]

/-- the same for the scores of `csu_fhc_cold_newml1` -/
theorem C141_visible_ml_partial {α : Type} [PyFloat α] (A : MlArgs α) (hybrid : Bool) (M N : MInputs α)
    (hMN : SameInputs M N) (n : Nat) (h : ∀ k a, M.get k = some a → a.arr.data.length = n)
    (hA : GoodMl A (fun k => (M.get k).isSome) hybrid) (hn : A.nTypes = 2) (hw : NoZeroWidth α .ml A.band A.tempFactor) :
    ∃ (shape : List Nat) (rows rows' : List (List α)), csuFhcMlM A M = .ok (some (shape, rows)) ∧ csuFhcMlM A N = .ok (some (shape, rows')) ∧
      rows.length = rows'.length ∧
      ∀ i, Visible M i → ∀ c : Nat, (rows[c]?).map (fun row => row[i]?) = (rows'[c]?).map (fun row => row[i]?) := by
  obtain ⟨gs, gs', l1, l2, g1, g2, hv⟩ := masked_gates hMN n h
  obtain ⟨dz, d1, e1⟩ := ml_gates hA hn hw g1
  obtain ⟨dz', d2, e2⟩ := ml_gates hA hn hw g2
  rw [dz_shape hMN d1 d2] at e2
  refine ⟨_, _, _, e1, e2, by simp, fun i hi c => ?_⟩
  simp only [List.getElem?_map, Option.map_map]
  congr 1
  funext t
  simp only [Function.comp, List.getElem?_map, hv i hi]

/-- **C141, partial**, `calc_kdp_bringi`: a masked gate gets the `bad` KDP if the reflectivity under the mask is `bad`, as after
`dz = dz.filled(bad)`. -/
theorem C141_filled_reflectivity_partial (D : Kdp.Dialect XR) (J : Kdp.Junk XR) (dp dz rng : MRay XR) (o : Kdp.KdpOpts XR)
    (β t : ℝ) (hβ : o.bad = .fin β) (ht : o.thsd = .scalar (.fin t)) (gs window : ℝ) (f : Kdp.Fir XR)
    (hf : Kdp.getFir gs window = .ok (some f)) (out : Kdp.RayOut XR)
    (e : calcKdpBringiM D J dp dz rng o gs window = .ok (.one out)) (i : Nat) (hi : i < dp.buf.len)
    (hfill : ∀ j : Nat, dz.hidden j = true → dz.buf.mem j = .fin β) (hm : dz.hidden i = true) : out.kd[i]? = some (.fin β) := by
  unfold calcKdpBringiM at e
  rw [Kdp.bringi_one D J hf dp.plain dz.plain rng.plain o (t := .fin t) ht] at e
  cases hr : Kdp.calcKdpRayFir D false (Kdp.rayCall D J f o 0 dp.plain dz.plain rng.plain ⟨dp.plain.len, fun _ => .fin t⟩) with
  | error x => rw [hr] at e; cases e
  | ok out' =>
    rw [hr] at e
    cases e
    have := Kdp.C12_bad_reflectivity D false _ out hr i hi (by
      show (dz.buf.mem i ==. o.bad) = true
      rw [hfill i hm, hβ]; simp)
    rw [this]
    exact congrArg some hβ

/-! ## What does not hold -/

/-- one fully masked gate over the prototype of species `c` -/
noncomputable def maskedGate (c : Nat) : MInputs XR :=
  let a (k : Key) : Option (MArr XR) := some ⟨⟨.float, [1], [.fin (bell "S" .summer k c).m]⟩, [true]⟩
  ⟨a .DZ, a .DR, a .KD, a .RH, a .LD, a .T⟩

theorem maskedGate_cat (c : Nat) (hc : c < 10) :
    ∃ shape, csuFhcSummerM ({ band := "S" } : SummerArgs XR) (maskedGate c) = .ok (some (.hid shape [c + 1])) := by
  obtain ⟨shape, h⟩ := C23_prototypes "S" (by simp [bands]) "hybrid" true (by decide) [c] (by simpa using hc)
  exact ⟨shape, h⟩

theorem maskedGate_get (c : Nat) (k : Key) :
    (maskedGate c).get k = some ⟨⟨.float, [1], [.fin (bell "S" .summer k c).m]⟩, [true]⟩ := by
  cases k <;> rfl

theorem maskedGate_same (c d : Nat) : SameInputs (maskedGate c) (maskedGate d) := by
  intro k
  refine Or.inr ⟨_, _, maskedGate_get c k, maskedGate_get d k, rfl, rfl, rfl, ?_⟩
  intro i hi
  cases i <;> simp at hi

/-- **C141 is false** of `csu_fhc_summer`: a gate masked in all six variables is classified as drizzle (1) or hail (9) according
to the values under the mask. -/
theorem C141_full_false : ¬ C141Full := by
  intro h
  obtain ⟨s, e⟩ := maskedGate_cat 0 (by decide)
  obtain ⟨s', e'⟩ := maskedGate_cat 8 (by decide)
  rw [h _ _ _ (maskedGate_same 0 8), e'] at e
  simp at e

/-- a masked ray of 101 gates with phase `a * range` under the mask -/
noncomputable def hiddenRay (a : ℝ) : MRay XR := ⟨⟨101, fun j => .fin (a * (1 + 1 * j) + 0)⟩, fun _ => true⟩

theorem hiddenRay_kdp (a : ℝ) (h0 : 0 ≤ a) (h1 : a ≤ 2) :
    ∃ out, calcKdpBringiM Kdp.fortran Kdp.exJunk (hiddenRay a) ⟨Kdp.exDz, fun _ => false⟩ ⟨Kdp.exRng, fun _ => false⟩ Kdp.exOpts 150 3 =
      .ok (.one out) ∧ out.kd[50]? = some (.fin (a / 2)) := by
  obtain ⟨f, hf, h20⟩ := Kdp.fir_150_3
  have hj : ∀ j : Nat, j < 101 → (j : ℝ) ≤ 100 := by
    intro j hj; have : j ≤ 100 := by omega
    exact_mod_cast this
  have hb : ∀ j : Nat, j < 101 → 0 ≤ a * (1 + 1 * (j : ℝ)) ∧ a * (1 + 1 * (j : ℝ)) ≤ 202 := by
    intro j h
    have := hj j h
    have h2 : (0 : ℝ) ≤ j := by positivity
    constructor
    · positivity
    · nlinarith
  obtain ⟨out, e1, -, -, e2⟩ := Kdp.C89_clean_linear_ray_fortran Kdp.exJunk 150 3 (by norm_num) (by norm_num) f hf (by omega)
    (hiddenRay a).buf Kdp.exDz Kdp.exRng Kdp.exOpts
    (-32768) 12 rfl rfl 0 rfl (by decide) 1 1 a 0 one_ne_zero
    (fun j hj' => ⟨by simp [Kdp.exRng], by have := hj j hj'; norm_num; linarith⟩)
    (fun j hj' => ⟨by simp [hiddenRay], by have := (hb j hj').2; norm_num at this ⊢; linarith, by
      have := (hb j hj').1
      intro hc; norm_num at hc this; linarith⟩) (by simp)
  refine ⟨out, e1, ?_⟩
  exact e2 50 40 rfl (by norm_num) (by rw [Kdp.adaptive_40, h20]; decide) (by rw [Kdp.adaptive_40, h20]; show 50 + 20 / 2 + 0 + 2 * (20 / 2) / 2 < 101; decide)

/-- **C141 is false** of `calc_kdp_bringi`: a ray whose phase is masked everywhere gets the KDP of the values under the mask. -/
theorem C141_kdp_full_false : ¬ C141KdpFull := by
  intro h
  obtain ⟨o, e1, e2⟩ := hiddenRay_kdp 2 (by norm_num) le_rfl
  obtain ⟨o', e1', e2'⟩ := hiddenRay_kdp 1 (by norm_num) (by norm_num)
  rw [h _ (hiddenRay 2) (hiddenRay 1) _ _ _ _ _ ⟨rfl, rfl, fun i _ hi => by cases hi⟩, e1'] at e1
  cases e1
  rw [e2] at e2'
  norm_num at e2'

/-! ## Non-vacuity -/

/-- two gates, the second masked in `zdr` only -/
noncomputable def exM (x : ℝ) : MInputs XR :=
  ⟨some ⟨⟨.float, [2], [.fin 30, .fin 40]⟩, [false, false]⟩, some ⟨⟨.float, [2], [.fin 1, .fin x]⟩, [false, true]⟩, none, none, none, none⟩

theorem exM_same (x y : ℝ) : SameInputs (exM x) (exM y) := by
  intro k
  cases k
  case DZ => exact Or.inr ⟨_, _, rfl, rfl, rfl, rfl, rfl, fun _ _ => rfl⟩
  case DR =>
    refine Or.inr ⟨_, _, rfl, rfl, rfl, rfl, rfl, fun i hi => ?_⟩
    match i, hi with
    | 0, _ => rfl
    | 1, hi => simp at hi
    | i + 2, hi => simp at hi
  all_goals exact Or.inl ⟨rfl, rfl⟩

theorem exM_visible (x : ℝ) : Visible (exM x) 0 := by
  intro k a
  cases k <;> intro h <;> cases h <;> rfl

example : ∃ shape r r', csuFhcSummerM ({ band := "S" } : SummerArgs XR) (exM 3) = .ok (some (.hid shape r)) ∧
    csuFhcSummerM ({ band := "S" } : SummerArgs XR) (exM 5) = .ok (some (.hid shape r')) ∧ r.length = 2 ∧ r[0]? = r'[0]? := by
  obtain ⟨s, r, r', h1, h2, h3, -, h4⟩ := C141_visible_gates_partial ({ band := "S" } : SummerArgs XR) true (exM 3) (exM 5) (exM_same 3 5) 2
    (by intro k a; cases k <;> intro h <;> cases h <;> rfl)
    ⟨by simp [bands], by show methodOf "hybrid" = _; decide, rfl, by simp, by simp⟩ rfl rfl (noZeroWidth_default (by simp [bands]))
  exact ⟨s, r, r', h1, h2, h3, h4 0 (exM_visible 3)⟩

example : ∃ shape rows rows', csuFhcWinterM ({} : WinterArgs XR) (exM 3) = .ok (some (shape, rows)) ∧
    csuFhcWinterM ({} : WinterArgs XR) (exM 5) = .ok (some (shape, rows')) ∧ rows.length = rows'.length := by
  obtain ⟨s, r, r', h1, h2, h3, -⟩ := C141_visible_winter_partial ({} : WinterArgs XR) false (exM 3) (exM 5) (exM_same 3 5) 2
    (by intro k a; cases k <;> intro h <;> cases h <;> rfl)
    ⟨by show ("S" : String) ∈ bands; simp [bands], by show methodOf "linear" = _; decide, rfl, by intro _; decide, by intro _ h; cases h⟩
    (by have := noZeroWidth_winter (band := "S") (by simp [bands]) one_pos; simpa using this)
  exact ⟨s, r, r', h1, h2, h3⟩

example : ∃ shape rows rows', csuFhcMlM ({} : MlArgs XR) (exM 3) = .ok (some (shape, rows)) ∧
    csuFhcMlM ({} : MlArgs XR) (exM 5) = .ok (some (shape, rows')) ∧ rows.length = rows'.length := by
  obtain ⟨s, r, r', h1, h2, h3, -⟩ := C141_visible_ml_partial ({} : MlArgs XR) false (exM 3) (exM 5) (exM_same 3 5) 2
    (by intro k a; cases k <;> intro h <;> cases h <;> rfl)
    ⟨by show ("S" : String) ∈ bands; simp [bands], by show methodOf "linear" = _; decide, rfl, by intro _; decide, by intro _ h; cases h⟩
    rfl (by have := noZeroWidth_ml (band := "S") (by simp [bands]) one_pos; simpa using this)
  exact ⟨s, r, r', h1, h2, h3⟩

/-- the masked gate 30 with fill value under the mask -/
example : ∃ out, calcKdpBringiM Kdp.fortran Kdp.exJunk (hiddenRay 2) ⟨⟨101, fun j => if j = 30 then .fin (-32768) else .fin 40⟩, fun j => j == 30⟩
    ⟨Kdp.exRng, fun _ => false⟩ Kdp.exOpts 150 3 = .ok (.one out) ∧ out.kd[30]? = some (.fin (-32768)) := by
  obtain ⟨f, hf, -⟩ := Kdp.fir_150_3
  obtain ⟨out, e⟩ := Kdp.C71_fortran_returns (Kdp.rayCall Kdp.fortran Kdp.exJunk f Kdp.exOpts 0 (hiddenRay 2).plain
    ⟨101, fun j => if j = 30 then .fin (-32768) else .fin 40⟩ Kdp.exRng ⟨101, fun _ => .fin 12⟩)
  have call : calcKdpBringiM Kdp.fortran Kdp.exJunk (hiddenRay 2) ⟨⟨101, fun j => if j = 30 then .fin (-32768) else .fin 40⟩, fun j => j == 30⟩
      ⟨Kdp.exRng, fun _ => false⟩ Kdp.exOpts 150 3 = .ok (.one out) := by
    unfold calcKdpBringiM
    rw [Kdp.bringi_one Kdp.fortran Kdp.exJunk hf _ _ _ Kdp.exOpts (t := .fin 12) rfl]
    exact congrArg (Except.map Kdp.Ret2.one) e
  refine ⟨out, call, ?_⟩
  exact C141_filled_reflectivity_partial _ _ _ _ _ Kdp.exOpts (-32768) 12 rfl rfl 150 3 f hf out call 30 (by show 30 < 101; decide)
    (by intro j hj; have : j = 30 := by simpa using hj
        subst this; rfl) rfl

end Csu.Masked
