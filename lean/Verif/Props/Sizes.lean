import Verif.Props.Fhc5
import Verif.Props.Fhc6
/-!
# C127: variables whose arrays do not have the size of the reflectivity array

All variables are flattened and handed to `hid_beta_f` together with the number of reflectivity gates; nothing compares the sizes.
-/
namespace Csu.Fhc
open Csu PyFloat Tables FhcSpec
variable {α : Type} [PyFloat α]

/-- the first gates of an array, as many as `dz` has, in the shape of `dz` -/
def firstOf (dz a : NdArray α) : NdArray α := ⟨a.dtype, dz.shape, a.data.take dz.data.length⟩

/-- the inputs with every variable other than reflectivity cut to its first gates, as many as there are reflectivity gates -/
def cutInputs (dz : NdArray α) (I : Inputs α) : Inputs α :=
  { dz := some dz, zdr := I.zdr.map (firstOf dz), kdp := I.kdp.map (firstOf dz), rho := I.rho.map (firstOf dz), ldr := I.ldr.map (firstOf dz),
    T := I.T.map (firstOf dz) }

/-- the same configuration with data cut to `sz` gates -/
def cutCfg (C : Cfg α) : Cfg α := { C with data := fun k => (C.data k).map (·.take C.sz) }

theorem hidBetaF_take (n : Nat) (x : List α) (r : Row α) : hidBetaF n (x.take n) r = hidBetaF n x r := by
  unfold hidBetaF
  rw [List.length_take, List.take_take, Nat.min_self]
  by_cases h : x.length < n
  · rw [Nat.min_eq_right (by omega)]
  · rw [Nat.min_eq_left (by omega), if_neg h, if_neg (by omega : ¬ n < n)]

theorem member_cut (C : Cfg α) (k : Key) (c : Nat) : member (cutCfg C) k c = member C k c := by
  unfold member cutCfg
  dsimp only
  cases C.data k with
  | none => rfl
  | some x =>
    dsimp only [Option.map]
    cases C.sets k with
    | none => rfl
    | some rows => simp only [hidBetaF_take]

theorem weighted_cut (C : Cfg α) (k : Key) (c : Nat) : weighted (cutCfg C) k c = weighted C k c := by
  unfold weighted
  rw [member_cut]; rfl

theorem usedKeys_cut (C : Cfg α) : usedKeys (cutCfg C) = usedKeys C := by
  unfold usedKeys cutCfg
  simp only [Option.isSome_map]

theorem calculateTest_cut (C : Cfg α) (c : Nat) : calculateTest (cutCfg C) c = calculateTest C c := by
  unfold calculateTest
  rw [usedKeys_cut]
  simp only [weighted_cut]
  rfl

theorem calculateTestTrap_cut (C : Cfg α) (hh : C.hybrid = true) (c : Nat) : calculateTestTrap (cutCfg C) c = calculateTestTrap C c := by
  have hk : ∀ k ∈ usedKeys C, trapRow (cutCfg C) c k = trapRow C c k := by
    intro k hk
    have hT : k ≠ .T := by
      rintro rfl
      unfold usedKeys varlist at hk
      rw [hh] at hk
      simp at hk
    unfold trapRow
    rw [if_neg hT, if_neg hT, weighted_cut]
  unfold calculateTestTrap
  rw [usedKeys_cut]
  have : (usedKeys C).mapM (trapRow (cutCfg C) c) = (usedKeys C).mapM (trapRow C c) := by
    revert hk
    generalize usedKeys C = l
    intro hk
    induction l with
    | nil => rfl
    | cons k l ih => rw [List.mapM_cons, List.mapM_cons, hk k (by simp), ih fun j hj => hk j (by simp [hj])]
  rw [this]
  rfl

theorem testFor_cut (C : Cfg α) (h : C.hybrid = true ∨ C.trap = false) (c : Nat) : testFor (cutCfg C) c = testFor C c := by
  have hp : polTest (cutCfg C) c = polTest C c := by
    unfold polTest
    rw [calculateTest_cut, show (cutCfg C).trap = C.trap from rfl]
    rcases h with h | h
    · rw [calculateTestTrap_cut C h]
    · simp [h]
  unfold testFor
  simp only [hp, member_cut]
  rfl

theorem mkCfg_cut (I : Inputs α) (dz : NdArray α) (hd : I.dz = some dz) (u : Bool) (w : Key → Nat → α) (sets : Sets α) (hy tr : Bool) :
    mkCfg (cutInputs dz I) dz u w sets hy tr = cutCfg (mkCfg I dz u w sets hy tr) := by
  have hs : ∀ k, ((cutInputs dz I).get k).isSome = (I.get k).isSome := by
    intro k
    cases k <;> simp [cutInputs, Inputs.get, hd]
  have hdat : radarData (cutInputs dz I) = fun k => (radarData I k).map (·.take dz.data.length) := by
    funext k
    cases k <;> simp [cutInputs, Inputs.get, radarData, hd, firstOf, Function.comp_def]
  unfold mkCfg cutCfg fhcVars
  simp only [hs, hdat]

theorem getTestList_cut (C : Cfg α) (h : C.hybrid = true ∨ C.trap = false) (types : List Nat) :
    getTestList (cutCfg C) types = getTestList C types := by
  unfold getTestList
  rw [show testFor (cutCfg C) = testFor C from funext fun c => testFor_cut C h c]

theorem cut_T (dz : NdArray α) (I : Inputs α) : (cutInputs dz I).T.isNone = I.T.isNone := by
  simp [cutInputs]

/-- **C127**, what the code does (all classifiers, any arithmetic, any files' values): a variable with more gates than the reflectivity is cut, after
flattening, to its first gates, and the rest is ignored; the call is the call with the cut arrays.  (`use_trap` with the linear method is excluded: see
`C127_trapezoid_partial`.) -/
theorem C127_surplus_ignored_partial (I : Inputs α) (dz : NdArray α) (hd : I.dz = some dz) :
    (∀ A : SummerArgs α, (A.useTrap = true → Occurs "hybrid" A.method) → csuFhcSummer A I = csuFhcSummer A (cutInputs dz I)) ∧
    (∀ A : WinterArgs α, csuFhcWinter A I = csuFhcWinter A (cutInputs dz I)) ∧
    (∀ A : MlArgs α, csuFhcMl A I = csuFhcMl A (cutInputs dz I)) := by
  refine ⟨fun A hA => ?_, fun A => ?_, fun A => ?_⟩
  · unfold csuFhcSummer
    suffices h : summerRows A (cutInputs dz I) = summerRows A I by rw [h]
    unfold summerRows
    rw [hd, show (cutInputs dz I).dz = some dz from rfl]
    dsimp only
    rw [cut_T]
    congr 1
    funext sets
    cases hm : methodOf A.method with
    | none => rfl
    | some hy =>
      dsimp only
      rw [mkCfg_cut I dz hd, getTestList_cut]
      show hy = true ∨ A.useTrap = false
      cases ht : A.useTrap with
      | false => exact .inr rfl
      | true =>
        have := (C25_method_selection A.method).1.mpr (hA ht)
        rw [hm] at this
        exact .inl (Option.some.inj this)
  · unfold csuFhcWinter
    rw [hd, show (cutInputs dz I).dz = some dz from rfl]
    dsimp only
    rw [cut_T]
    congr 1
    funext sets
    cases hm : methodOf A.method with
    | none => rfl
    | some hy =>
      dsimp only
      rw [mkCfg_cut I dz hd, getTestList_cut _ (.inr rfl)]
  · unfold csuFhcMl
    rw [hd, show (cutInputs dz I).dz = some dz from rfl]
    dsimp only
    rw [cut_T]
    congr 1
    funext sets
    cases hm : methodOf A.method with
    | none => rfl
    | some hy =>
      dsimp only
      rw [mkCfg_cut I dz hd, getTestList_cut _ (.inr rfl)]

/-! ## Arrays that are too short -/

/-- either a list of `n` values, or a read past the end of one of the arrays that are too short -/
def OkOrOob (I : Inputs α) (n : Nat) (e : Except PyErr (List α)) : Prop :=
  (∃ l, e = .ok l ∧ l.length = n) ∨ ∃ k a, I.get k = some a ∧ a.data.length < n ∧ e = .error (.outOfBounds "x_arr" a.data.length)

section
variable {I : Inputs α} {dz : NdArray α} {u hy tr : Bool} {w : Key → Nat → α} {f : α} {band : String} {k : Key} {c : Nat}

theorem member_shipped (hb : band ∈ bands) (hw : NoZeroWidth α .summer band f) (hk : k = .T → u = true) (hc : c < 10)
    {a : NdArray α} (ha : I.get k = some a) :
    let e := member (mkCfg I dz u w (setsOf .summer u f band) hy tr) k c
    (a.data.length < dz.data.length → e = .error (.outOfBounds "x_arr" a.data.length)) ∧
    (dz.data.length ≤ a.data.length → ∃ l, e = .ok l ∧ l.length = dz.data.length) := by
  intro e
  obtain ⟨rows, h1, h2, -⟩ := C19_summer band hb k
  have hr : ∃ r, (getBetaSet rows (if k = .T then f else 1.0) : List (Row α))[c]? = some r ∧ (r.a ==. 0) = false := by
    have hlt : c < rows.length := by omega
    refine ⟨⟨rawVal rows[c].m / (if k = .T then f else 1.0), rawVal rows[c].a / (if k = .T then f else 1.0),
      rawVal rows[c].b / (if k = .T then f else 1.0)⟩, ?_, ?_⟩
    · unfold getBetaSet
      rw [List.getElem?_map, List.getElem?_eq_getElem hlt]
      rfl
    · exact hw k rows rows[c] h1 (List.getElem_mem hlt)
  obtain ⟨r, hr, hz⟩ := hr
  have he : e = hidBetaF dz.data.length a.data r := by
    show member _ _ _ = _
    unfold member mkCfg radarData
    dsimp only
    rw [ha]
    dsimp only [Option.map]
    rw [setsOf_eq _ _ _ _ _ hk, h1]
    dsimp only [Option.map]
    rw [hr]
  rw [he]
  unfold hidBetaF
  refine ⟨fun h => ?_, fun h => ?_⟩
  · rw [if_neg (by omega), if_neg (by simp [hz]), if_pos h]
  · split
    · exact ⟨_, rfl, by simp; omega⟩
    · rw [if_neg (by simp [hz]), if_neg (by omega)]
      exact ⟨_, rfl, by simp; omega⟩

theorem member_okor (hb : band ∈ bands) (hw : NoZeroWidth α .summer band f) (hk : k = .T → u = true) (hc : c < 10)
    {a : NdArray α} (ha : I.get k = some a) :
    OkOrOob I dz.data.length (member (mkCfg I dz u w (setsOf .summer u f band) hy tr) k c) := by
  have h := member_shipped (I := I) (dz := dz) (u := u) (hy := hy) (tr := tr) (w := w) hb hw hk hc ha
  by_cases hl : a.data.length < dz.data.length
  · exact .inr ⟨k, a, ha, hl, h.1 hl⟩
  · exact .inl (h.2 (by omega))

theorem weighted_okor (hb : band ∈ bands) (hw : NoZeroWidth α .summer band f) (hk : k = .T → u = true) (hc : c < 10)
    {a : NdArray α} (ha : I.get k = some a) :
    OkOrOob I dz.data.length (weighted (mkCfg I dz u w (setsOf .summer u f band) hy tr) k c) := by
  unfold weighted
  rcases member_okor (I := I) (dz := dz) (u := u) (hy := hy) (tr := tr) (w := w) hb hw hk hc ha with ⟨l, h, hl⟩ | ⟨k', a', ha', hl, h⟩
  · rw [h]; exact .inl ⟨_, rfl, by simpa using hl⟩
  · rw [h]; exact .inr ⟨k', a', ha', hl, rfl⟩

theorem mapM_okor {n : Nat} {F : Key → Except PyErr (List α)} (l : List Key) (h : ∀ k ∈ l, OkOrOob I n (F k)) :
    (∃ rows, l.mapM F = .ok rows ∧ (∀ k ∈ l, ∃ r, F k = .ok r) ∧ ∀ r ∈ rows, r.length = n) ∨
      ∃ k a, I.get k = some a ∧ a.data.length < n ∧ l.mapM F = .error (.outOfBounds "x_arr" a.data.length) := by
  induction l with
  | nil => exact .inl ⟨[], rfl, by simp, by simp⟩
  | cons x xs ih =>
    rw [List.mapM_cons]
    rcases h x (by simp) with ⟨r, hr, hl⟩ | ⟨k, a, ha, hl, hr⟩
    · rw [hr]
      rcases ih fun k hk => h k (by simp [hk]) with ⟨rows, hrows, hall, hlen⟩ | ⟨k, a, ha, hl', hk⟩
      · rw [hrows]
        refine .inl ⟨r :: rows, rfl, ?_, ?_⟩
        · intro k hk
          rcases List.mem_cons.mp hk with rfl | hk
          · exact ⟨r, hr⟩
          · exact hall k hk
        · intro q hq
          rcases List.mem_cons.mp hq with rfl | hq
          · exact hl
          · exact hlen q hq
      · rw [hk]; exact .inr ⟨k, a, ha, hl', rfl⟩
    · rw [hr]; exact .inr ⟨k, a, ha, hl, rfl⟩

theorem sumAxis0_length {n : Nat} {rows : List (List α)} (h : ∀ r ∈ rows, r.length = n) : ∃ s, sumAxis0 n rows = .ok s ∧ s.length = n := by
  unfold sumAxis0
  rw [if_pos (by simpa using h)]
  refine ⟨_, rfl, ?_⟩
  suffices hh : ∀ (acc : List α), acc.length = n → (rows.foldl (fun acc r => List.zipWith (· + ·) acc r) acc).length = n from hh _ (by simp)
  induction rows with
  | nil => intro acc ha; exact ha
  | cons r rows ih =>
    intro acc ha
    rw [List.foldl_cons]
    exact ih (fun q hq => h q (by simp [hq])) _ (by simp [ha, h r (by simp)])

/-- a variable that a call reads: a supplied polarimetric one, or temperature if it is used -/
def Reads (I : Inputs α) (useTemp : Bool) (k : Key) (a : NdArray α) : Prop := I.get k = some a ∧ (k ∈ pol ∨ k = .T ∧ useTemp = true)

theorem pol_of_used {C : Cfg α} (hh : C.hybrid = true) {k : Key} (hk : k ∈ usedKeys C) : k ∈ pol := by
  unfold usedKeys varlist at hk
  rw [hh] at hk
  exact (List.mem_filter.mp hk).1

/-- one score of the hybrid method: as many values as there are gates, or a read past the end of an array -/
theorem hybrid_okor (hb : band ∈ bands) (hw : NoZeroWidth α .summer band f) (hd : I.dz = some dz) (hu : u = true → I.T.isSome = true) (hc : c < 10) :
    OkOrOob I dz.data.length (testFor (mkCfg I dz u w (setsOf .summer u f band) true tr) c) ∧
    ((∃ k a, Reads I u k a ∧ a.data.length < dz.data.length) →
      ∀ l, testFor (mkCfg I dz u w (setsOf .summer u f band) true tr) c ≠ .ok l) := by
  set C := mkCfg I dz u w (setsOf .summer u f band) true tr with hC
  have hmem : ∀ k a, (k = .T → u = true) → I.get k = some a → OkOrOob I dz.data.length (member C k c) := fun k a hk ha =>
    member_okor hb hw hk hc ha
  have hrows : ∀ k ∈ usedKeys C, OkOrOob I dz.data.length (weighted C k c) := by
    intro k hk
    have hkp := pol_of_used (C := C) rfl hk
    have hsome : (I.get k).isSome = true := by
      have := (List.mem_filter.mp hk).2
      simpa [hC, mkCfg, radarData] using this
    obtain ⟨a, ha⟩ := Option.isSome_iff_exists.mp hsome
    exact weighted_okor hb hw (by rintro rfl; simp [pol] at hkp) hc ha
  have hpt : polTest C c = calculateTest C c := by
    unfold polTest
    split
    · unfold calculateTestTrap calculateTest
      have : (usedKeys C).mapM (trapRow C c) = (usedKeys C).mapM (fun k => weighted C k c) := by
        have hk : ∀ k ∈ usedKeys C, trapRow C c k = weighted C k c := by
          intro k hk
          have hkp := pol_of_used (C := C) rfl hk
          unfold trapRow
          rw [if_neg (by rintro rfl; simp [pol] at hkp)]
        revert hk
        generalize usedKeys C = l
        intro hk
        induction l with
        | nil => rfl
        | cons k l ih => rw [List.mapM_cons, List.mapM_cons, hk k (by simp), ih fun j hj => hk j (by simp [hj])]
      rw [this]
    · rfl
  have hpol : OkOrOob I dz.data.length (polTest C c) ∧
      ((∃ k a, k ∈ pol ∧ I.get k = some a ∧ a.data.length < dz.data.length) → ∀ l, polTest C c ≠ .ok l) := by
    rw [hpt]
    unfold calculateTest
    rcases mapM_okor (I := I) (n := dz.data.length) (usedKeys C) hrows with ⟨rows, h1, h2, h3⟩ | ⟨k, a, ha, hl, h1⟩
    · rw [h1]
      obtain ⟨s, hs, hsl⟩ := sumAxis0_length h3
      refine ⟨.inl ⟨s.map (fun v => v / weightSum C c), ?_, by simpa using hsl⟩, ?_⟩
      · show (Bind.bind (sumAxis0 dz.data.length rows) _ : Except PyErr (List α)) = _
        rw [hs]; rfl
      · rintro ⟨k, a, hk, ha, hl⟩
        have hku : k ∈ usedKeys C := List.mem_filter.mpr ⟨hk, by simp [hC, mkCfg, radarData, ha]⟩
        obtain ⟨r, hr⟩ := h2 k hku
        have hk' : k = .T → u = true := by rintro rfl; simp [pol] at hk
        have := (member_shipped (I := I) (dz := dz) (u := u) (hy := true) (tr := tr) (w := w) hb hw hk' hc ha).1 hl
        unfold weighted at hr
        rw [← hC] at this
        rw [this] at hr
        cases hr
    · rw [h1]
      exact ⟨.inr ⟨k, a, ha, hl, rfl⟩, fun _ l h => by cases h⟩
  have hdz : I.get .DZ = some dz := hd
  have hdzm : ∃ l, member C .DZ c = .ok l ∧ l.length = dz.data.length :=
    (member_shipped (I := I) (dz := dz) (u := u) (hy := true) (tr := tr) (w := w) hb hw (by simp) hc hdz).2 (Nat.le_refl _)
  obtain ⟨d, hdm, hdl⟩ := hdzm
  have hvz : C.vars .DZ ≠ 0 := by
    show fhcVars I u .DZ ≠ 0
    unfold fhcVars
    simp [hdz]
  -- the three stages
  have hst1 : ∀ t : Except PyErr (Option (List α)),
      t = (if polFlag C then (do let t ← polTest C c; .ok (some t)) else .ok none) →
      (∃ o, t = .ok o ∧ (∀ l, o = some l → l.length = dz.data.length) ∧ (polFlag C = true → ∀ k a, k ∈ pol → I.get k = some a → ¬ a.data.length < dz.data.length)) ∨
        ∃ k a, I.get k = some a ∧ a.data.length < dz.data.length ∧ t = .error (.outOfBounds "x_arr" a.data.length) := by
    intro t ht
    by_cases hp : polFlag C = true
    · rw [if_pos hp] at ht
      rcases hpol.1 with ⟨l, h1, hl⟩ | ⟨k, a, ha, hl, h1⟩
      · rw [h1] at ht
        exact .inl ⟨some l, ht, fun l' h' => by cases h'; exact hl, fun _ k a hk ha hlt => hpol.2 ⟨k, a, hk, ha, hlt⟩ l h1⟩
      · rw [h1] at ht
        exact .inr ⟨k, a, ha, hl, ht⟩
    · rw [if_neg hp] at ht
      exact .inl ⟨none, ht, by simp, fun h => absurd h hp⟩
  have hpf : ∀ k a, k ∈ pol → I.get k = some a → polFlag C = true := by
    intro k a hk ha
    have hv : C.vars k ≠ 0 := by
      show fhcVars I u k ≠ 0
      unfold fhcVars
      have : k ≠ .T := by rintro rfl; simp [pol] at hk
      simp [ha, this]
    unfold polFlag
    simp only [pol, List.mem_cons, List.not_mem_nil, or_false] at hk
    rcases hk with rfl | rfl | rfl | rfl <;> simp [hv]
  unfold testFor
  rw [if_pos (show C.hybrid = true from rfl)]
  rcases hst1 _ rfl with ⟨o, h1, hlo, hshort⟩ | ⟨k, a, ha, hl, h1⟩
  swap
  · rw [h1]; exact ⟨.inr ⟨k, a, ha, hl, rfl⟩, fun _ l h => by cases h⟩
  rw [h1]
  by_cases hu' : u = true
  · obtain ⟨ta, hta⟩ := Option.isSome_iff_exists.mp (hu hu')
    have hT : I.get .T = some ta := hta
    have hm := member_shipped (I := I) (dz := dz) (u := u) (hy := true) (tr := tr) (w := w) (k := .T) hb hw (fun _ => hu') hc hT
    rw [← hC] at hm
    have hCu : C.useTemp = true := hu'
    by_cases hlt : ta.data.length < dz.data.length
    · have := hm.1 hlt
      refine ⟨.inr ⟨.T, ta, hT, hlt, ?_⟩, fun _ l h => ?_⟩
      · show (Bind.bind (if C.useTemp = true then _ else _) _ : Except PyErr (List α)) = _
        rw [if_pos hCu]
        cases o <;> (dsimp only; rw [this]; rfl)
      · revert h
        show (Bind.bind (if C.useTemp = true then _ else _) _ : Except PyErr (List α)) ≠ _
        rw [if_pos hCu]
        cases o <;> (dsimp only; rw [this]; intro h; cases h)
    · obtain ⟨b, hb', hbl⟩ := hm.2 (by omega)
      have hno : ¬ ∃ k a, Reads I u k a ∧ a.data.length < dz.data.length := by
        rintro ⟨k, a, ⟨ha, hk | ⟨rfl, -⟩⟩, hl⟩
        · exact hshort (hpf k a hk ha) k a hk ha hl
        · rw [hT] at ha; cases ha; exact hlt hl
      refine ⟨.inl ?_, fun h => absurd h hno⟩
      show ∃ l, (Bind.bind (if C.useTemp = true then _ else _) _ : Except PyErr (List α)) = _ ∧ _
      rw [if_pos hCu]
      cases o with
      | none =>
        dsimp only
        rw [hb']
        show ∃ l, (Bind.bind (if C.vars .DZ ≠ 0 then _ else _) _ : Except PyErr (List α)) = _ ∧ _
        rw [if_pos hvz]
        dsimp only
        rw [hdm]
        exact ⟨_, rfl, by simp [mulArr, hbl, hdl]⟩
      | some t =>
        have htl := hlo t rfl
        dsimp only
        rw [hb']
        show ∃ l, (Bind.bind (if C.vars .DZ ≠ 0 then _ else _) _ : Except PyErr (List α)) = _ ∧ _
        rw [if_pos hvz]
        dsimp only
        rw [hdm]
        exact ⟨_, rfl, by simp [mulArr, hbl, hdl, htl]⟩
  · have hno : ¬ ∃ k a, Reads I u k a ∧ a.data.length < dz.data.length := by
      rintro ⟨k, a, ⟨ha, hk | ⟨rfl, h⟩⟩, hl⟩
      · exact hshort (hpf k a hk ha) k a hk ha hl
      · exact hu' h
    refine ⟨.inl ?_, fun h => absurd h hno⟩
    show ∃ l, (Bind.bind (if C.useTemp = true then _ else _) _ : Except PyErr (List α)) = _ ∧ _
    rw [if_neg (show ¬ C.useTemp = true from hu')]
    show ∃ l, (Bind.bind (if C.vars .DZ ≠ 0 then _ else _) _ : Except PyErr (List α)) = _ ∧ _
    rw [if_pos hvz]
    cases o with
    | none => dsimp only; rw [hdm]; exact ⟨_, rfl, hdl⟩
    | some t => dsimp only; rw [hdm]; exact ⟨_, rfl, by simp [mulArr, hdl, hlo t rfl]⟩
end

theorem effTemp_isSome {I : Inputs α} {b : Bool} (h : (if I.T.isNone then false else b) = true) : I.T.isSome = true := by
  cases hT : I.T with
  | none => rw [hT] at h; exact h
  | some a => rfl

theorem summer_sets_length {band : String} (hb : band ∈ bands) (u : Bool) (f : α) : ((setsOf .summer u f band .DZ).getD []).length = 10 := by
  obtain ⟨rows, h1, h2, _⟩ := C19_summer band hb .DZ
  rw [setsOf_eq _ _ _ _ _ (by simp), h1]
  simpa [getBetaSet] using h2

/-- a summer call whose first species fails -/
theorem summer_first {A : SummerArgs α} {I : Inputs α} {dz : NdArray α} (hd : I.dz = some dz) (hb : A.band ∈ bands) {hy : Bool}
    (hm : methodOf A.method = some hy) {e : PyErr}
    (he : testFor (mkCfg I dz (if I.T.isNone then false else A.useTemp) (fun k _ => A.weights k)
      (setsOf .summer (if I.T.isNone then false else A.useTemp) A.tempFactor A.band) hy A.useTrap) 0 = .error e) :
    csuFhcSummer A I = .error e := by
  have hl : List.range 10 = 0 :: (List.range 9).map (· + 1) := by decide
  unfold csuFhcSummer summerRows
  rw [hd]
  dsimp only
  rw [getMbfSets_ok .summer _ _ _ (isSome_of_mem hb _ _), hm]
  show (Bind.bind (Bind.bind (getTestList _ (List.range (((setsOf .summer _ A.tempFactor A.band) .DZ).getD []).length)) _) _ : Except PyErr _) = _
  rw [summer_sets_length hb]
  unfold getTestList
  rw [hl, mapM_error _ _ e he]
  rfl

/-- **C127**, what the code does with a variable that has fewer gates than the reflectivity, hybrid method (any weights and flags, shipped tables): if such a
variable is read at all, memory past the end of one of the short arrays is read.  (The compiled loop has no bounds check, so there is no exception: the
"error" of the model stands for undefined behaviour.)  A single temperature or a profile is not spread over the gates. -/
theorem C127_short_partial (A : SummerArgs α) (I : Inputs α) (dz : NdArray α) (hd : I.dz = some dz) (hb : A.band ∈ bands)
    (hm : Occurs "hybrid" A.method) (hw : NoZeroWidth α .summer A.band A.tempFactor)
    (hs : ∃ k a, Reads I A.useTemp k a ∧ a.data.length < dz.data.length) :
    ∃ k a, I.get k = some a ∧ a.data.length < dz.data.length ∧ csuFhcSummer A I = .error (.outOfBounds "x_arr" a.data.length) := by
  set u := (if I.T.isNone then false else A.useTemp) with hu
  have hs' : ∃ k a, Reads I u k a ∧ a.data.length < dz.data.length := by
    obtain ⟨k, a, ⟨ha, hk⟩, hl⟩ := hs
    refine ⟨k, a, ⟨ha, hk.imp id fun h => ⟨h.1, ?_⟩⟩, hl⟩
    obtain ⟨rfl, h⟩ := h
    have hT : I.T = some a := ha
    rw [hu, hT]; simpa using h
  have h := hybrid_okor (I := I) (dz := dz) (u := u) (tr := A.useTrap) (w := fun k _ => A.weights k) (c := 0) hb hw hd
    (fun h => effTemp_isSome h) (by omega)
  rcases h.1 with ⟨l, hl, -⟩ | ⟨k, a, ha, hlt, he⟩
  · exact absurd hl (h.2 hs' l)
  · exact ⟨k, a, ha, hlt, summer_first hd hb ((C25_method_selection A.method).1.mpr hm) he⟩

/-- **C127**: with the linear method and `use_trap`, a temperature array of another size raises ValueError (the other arrays being large enough). -/
theorem C127_trapezoid_partial (A : SummerArgs α) (I : Inputs α) (dz T : NdArray α) (hd : I.dz = some dz) (hT : I.T = some T) (hb : A.band ∈ bands)
    (hm : ¬ Occurs "hybrid" A.method) (hm' : Occurs "linear" A.method) (htrap : A.useTrap = true) (hw : NoZeroWidth α .summer A.band A.tempFactor)
    (hpol : ∃ k ∈ pol, (I.get k).isSome = true) (hl : ∀ k ∈ pol, ∀ a, I.get k = some a → dz.data.length ≤ a.data.length)
    (hne : T.data.length ≠ dz.data.length) : csuFhcSummer A I = .error .valueError := by
  refine summer_first hd hb ((C25_method_selection A.method).2.1.mpr ⟨hm, hm'⟩) ?_
  set u := (if I.T.isNone then false else A.useTemp) with hu
  set C := mkCfg I dz u (fun k _ => A.weights k) (setsOf .summer u A.tempFactor A.band) false A.useTrap with hC
  have hpf : polFlag C = true := by
    obtain ⟨k, hk, hs⟩ := hpol
    have hv : C.vars k ≠ 0 := by
      show fhcVars I u k ≠ 0
      unfold fhcVars
      have : k ≠ .T := by rintro rfl; simp [pol] at hk
      simp [hs, this]
    unfold polFlag
    simp only [pol, List.mem_cons, List.not_mem_nil, or_false] at hk
    rcases hk with rfl | rfl | rfl | rfl <;> simp [hv]
  unfold testFor
  rw [if_neg (by simp [hC, mkCfg]), if_pos hpf]
  unfold polTest
  rw [if_pos (show C.trap = true from htrap)]
  unfold calculateTestTrap
  have hrow : ∀ k ∈ usedKeys C, ∃ r, trapRow C 0 k = .ok r ∧ (k = .T → r.length ≠ dz.data.length) := by
    intro k hk
    unfold trapRow
    by_cases hkT : k = .T
    · subst hkT
      rw [if_pos rfl, show C.data .T = some T.data by simp [hC, mkCfg, radarData, Inputs.get, hT]]
      dsimp only
      rw [trap_map 0 (by omega)]
      exact ⟨_, rfl, fun _ => by simpa using hne⟩
    · rw [if_neg hkT]
      have hsome : (I.get k).isSome = true := by
        have := (List.mem_filter.mp hk).2
        simpa [hC, mkCfg, radarData] using this
      obtain ⟨a, ha⟩ := Option.isSome_iff_exists.mp hsome
      have hle : dz.data.length ≤ a.data.length := by
        have hkm := (List.mem_filter.mp hk).1
        by_cases hkz : k = .DZ
        · subst hkz
          have : I.get .DZ = some dz := hd
          rw [this] at ha; cases ha; exact Nat.le_refl _
        · refine hl k ?_ a ha
          revert hkT hkz
          cases k <;> simp [pol]
      obtain ⟨l, h1, -⟩ := (member_shipped (I := I) (dz := dz) (u := u) (hy := false) (tr := A.useTrap) (w := fun k _ => A.weights k) (c := 0)
        hb hw (fun h => absurd h hkT) (by omega) ha).2 hle
      unfold weighted
      rw [hC, h1]
      exact ⟨_, rfl, fun h => absurd h hkT⟩
  have hTu : Key.T ∈ usedKeys C := List.mem_filter.mpr ⟨by simp [hC, mkCfg, varlist], by simp [hC, mkCfg, radarData, Inputs.get, hT]⟩
  have hmap : ∃ rows, (usedKeys C).mapM (trapRow C 0) = .ok rows ∧ ∃ r ∈ rows, r.length ≠ dz.data.length := by
    revert hrow hTu
    generalize usedKeys C = l
    intro hrow hTu
    have hall : ∀ l : List Key, (∀ k ∈ l, ∃ r, trapRow C 0 k = .ok r) → ∃ rows, l.mapM (trapRow C 0) = .ok rows := by
      intro l
      induction l with
      | nil => exact fun _ => ⟨[], rfl⟩
      | cons x xs ih =>
        intro h
        obtain ⟨r, hr⟩ := h x (by simp)
        obtain ⟨rows, hrows⟩ := ih fun k hk => h k (by simp [hk])
        exact ⟨r :: rows, by rw [List.mapM_cons, hr, hrows]; rfl⟩
    obtain ⟨rows, hrows⟩ := hall l fun k hk => (hrow k hk).imp fun r h => h.1
    refine ⟨rows, hrows, ?_⟩
    clear hall
    induction l generalizing rows with
    | nil => cases hTu
    | cons x xs ih =>
      rw [List.mapM_cons] at hrows
      obtain ⟨r, hr, hx⟩ := hrow x (by simp)
      rw [hr] at hrows
      cases hq : xs.mapM (trapRow C 0) with
      | error e => rw [hq] at hrows; cases hrows
      | ok rs =>
        rw [hq] at hrows
        cases hrows
        rcases List.mem_cons.mp hTu with h | h
        · exact ⟨r, by simp, hx h.symm⟩
        · obtain ⟨q, hq1, hq2⟩ := ih (fun k hk => hrow k (by simp [hk])) h rs hq
          exact ⟨q, by simp [hq1], hq2⟩
  obtain ⟨rows, h1, r, hr, hrl⟩ := hmap
  rw [h1]
  show (Bind.bind (sumAxis0 dz.data.length rows) _ : Except PyErr _) = _
  unfold sumAxis0
  rw [if_neg]
  · rfl
  · intro h
    rw [List.all_eq_true] at h
    exact hrl (by simpa using h r hr)

/-! ## The full statement -/

/-- C127 in full: a classification is returned only if all supplied arrays have the shape of the reflectivity array. -/
def C127Full : Prop := ∀ (A : SummerArgs XR) (I : Inputs XR) (dz : NdArray XR) (out : Out XR), I.dz = some dz →
  csuFhcSummer A I = .ok (some out) → ∀ k a, I.get k = some a → a.shape = dz.shape

/-- two reflectivity gates, and a differential reflectivity array of three rays of two gates -/
noncomputable def oddSizes : Inputs XR :=
  { dz := some ⟨.float, [2], [40, 20]⟩, zdr := some ⟨.float, [3, 2], [1, 0, 1, 0, 3, 0]⟩, kdp := none, rho := none, ldr := none, T := none }

/-- C127 is false of the code: the call returns a classification from the first two gates of the differential reflectivity. -/
theorem C127_full_false : ¬ C127Full := by
  intro h
  have hg : IsGates (cutInputs ⟨.float, [2], [40, 20]⟩ oddSizes) (fun k => k == .DZ || k == .DR)
      [fun k => if k = .DZ then (40 : XR) else 1, fun k => if k = .DZ then (20 : XR) else 0] := by
    intro k
    cases k <;> simp [cutInputs, oddSizes, Inputs.get, firstOf]
  obtain ⟨out, ho⟩ := C25_hybrid ({} : SummerArgs XR) _ _ _ (by decide) (by decide) rfl (noZeroWidth_default (by decide)) (by rfl) hg
  rw [← (C127_surplus_ignored_partial oddSizes ⟨.float, [2], [40, 20]⟩ rfl).1 _ (fun h => by cases h)] at ho
  have := h _ _ _ _ rfl ho .DR _ rfl
  simp at this

/-! ## Non-vacuity -/

/-- two gates with one temperature for both -/
noncomputable def oneTemp (d : List XR) : Inputs XR :=
  { dz := some ⟨.float, [2], [40, 20]⟩, zdr := some ⟨.float, [2], [1, 0]⟩, kdp := none, rho := none, ldr := none, T := some ⟨.float, [d.length], d⟩ }

/-- one temperature for two gates: the default call reads past its end -/
example : csuFhcSummer ({} : SummerArgs XR) (oneTemp [5]) = .error (.outOfBounds "x_arr" 1) := by
  obtain ⟨k, a, ha, hl, h⟩ := C127_short_partial ({} : SummerArgs XR) (oneTemp [5]) _ rfl (by decide) ⟨"", "", by decide⟩
    (noZeroWidth_default (by decide)) ⟨.T, _, ⟨rfl, .inr ⟨rfl, rfl⟩⟩, by simp⟩
  have : a.data.length = 1 := by
    revert hl ha
    cases k <;> simp only [oneTemp, Inputs.get, Option.some.injEq, reduceCtorEq, false_imp_iff] <;> rintro rfl <;> simp
  rw [h, this]; rfl

/-- with `use_trap` and the linear method: ValueError, for one temperature and for three -/
example (d : List XR) (h : d.length ≠ 2) :
    csuFhcSummer ({ method := "linear", useTrap := true } : SummerArgs XR) (oneTemp d) = .error .valueError :=
  C127_trapezoid_partial _ _ _ _ rfl rfl (by decide)
    (by rw [← (C25_method_selection _).1]; decide) ⟨"", "", by decide⟩ rfl (noZeroWidth_default (by decide))
    ⟨.DR, by decide, rfl⟩ (by
      intro k hk a ha
      revert ha hk
      cases k <;> simp only [oneTemp, Inputs.get, Option.some.injEq, reduceCtorEq, false_imp_iff, implies_true] <;> intro hk <;> rintro rfl <;>
        first | exact Nat.le_refl _ | exact absurd hk (by decide)) (by simpa using h)

end Csu.Fhc
