import Verif.Props.Csv4
import Verif.Props.MeltPpi
/-!
# C119: parameter files with too few lines
-/
namespace Csu.Csv
open Csu PyFloat Tables Fhc CsvSpec XR FhcSpec

section
variable {α : Type} [PyFloat α] {C : Cfg α}

/-- the call returns an array of `n` numbers or raises IndexError -/
def OkOrIndex (n : Nat) (r : Except PyErr (List α)) : Prop := (∃ y, r = .ok y ∧ y.length = n) ∨ r = .error .indexError

/-- variable `k` is supplied with the right number of gates, and its parameter set has nonzero widths -/
structure HasSet (C : Cfg α) (k : Key) (rows : List (Row α)) : Prop where
  data : ∃ x, C.data k = some x ∧ x.length = C.sz
  set : C.sets k = some rows
  width : ∀ r ∈ rows, (r.a ==. 0) = false

theorem HasSet.member {k : Key} {rows : List (Row α)} (h : HasSet C k rows) (c : Nat) :
    OkOrIndex C.sz (member C k c) ∧ (rows.length ≤ c → member C k c = .error .indexError) := by
  obtain ⟨x, h1, h2⟩ := h.data
  unfold Fhc.member
  simp only [h1, h.set]
  cases hr : rows[c]? with
  | none => exact ⟨Or.inr rfl, fun _ => rfl⟩
  | some r =>
    refine ⟨?_, fun hc => ?_⟩
    · left
      unfold hidBetaF
      have := h.width r (List.mem_of_getElem? hr)
      by_cases h0 : C.sz = 0
      · exact ⟨[], by simp [h0], by simp [h0]⟩
      · refine ⟨(x.take C.sz).map (beta r), ?_, ?_⟩
        · dsimp only
          rw [if_neg h0, if_neg (by simp [this]), if_neg (by omega)]
        · simp [h2]
    · rw [List.getElem?_eq_none hc] at hr; cases hr

theorem HasSet.weighted {k : Key} {rows : List (Row α)} (h : HasSet C k rows) (c : Nat) :
    OkOrIndex C.sz (weighted C k c) ∧ (rows.length ≤ c → weighted C k c = .error .indexError) := by
  obtain ⟨h1, h2⟩ := h.member c
  unfold Fhc.weighted
  refine ⟨?_, fun hc => by rw [h2 hc]; rfl⟩
  rcases h1 with ⟨y, h1, h3⟩ | h1
  · rw [h1]; exact Or.inl ⟨_, rfl, by simpa using h3⟩
  · rw [h1]; exact Or.inr rfl

theorem calculateTest_index (rows : Key → List (Row α)) (c : Nat) (h : ∀ k ∈ usedKeys C, HasSet C k (rows k)) :
    OkOrIndex C.sz (calculateTest C c) ∧ ((∃ k ∈ usedKeys C, (rows k).length ≤ c) → calculateTest C c = .error .indexError) := by
  have hall : ∀ k ∈ usedKeys C, (∃ y, weighted C k c = .ok y) ∨ weighted C k c = .error .indexError := by
    intro k hk
    rcases ((h k hk).weighted c).1 with ⟨y, hy, _⟩ | he
    · exact Or.inl ⟨y, hy⟩
    · exact Or.inr he
  have hbad : (∃ k ∈ usedKeys C, weighted C k c = .error .indexError) → calculateTest C c = .error .indexError := by
    intro hx
    unfold calculateTest
    rw [mapM_bad hall hx]; rfl
  refine ⟨?_, ?_⟩
  · by_cases hx : ∃ k ∈ usedKeys C, weighted C k c = .error .indexError
    · exact Or.inr (hbad hx)
    · left
      have hok : ∀ k ∈ usedKeys C, ∃ y, weighted C k c = .ok y := by
        intro k hk
        rcases hall k hk with h1 | h1
        · exact h1
        · exact absurd ⟨k, hk, h1⟩ hx
      obtain ⟨r, hr⟩ := mapM_all_ok hok
      have hlen : ∀ y ∈ r, y.length = C.sz := by
        intro y hy
        obtain ⟨i, hi, rfl⟩ := List.getElem_of_mem hy
        have hl := mapM_length hr
        obtain ⟨y', hy1, hy2⟩ := mapM_ok_get hr i (usedKeys C)[i] (List.getElem?_eq_getElem (by omega))
        rw [List.getElem?_eq_getElem hi, Option.some.injEq] at hy2
        rcases ((h _ (List.getElem_mem (by omega : i < (usedKeys C).length))).weighted c).1 with ⟨y, e1, e2⟩ | e
        · rw [hy1] at e1; cases e1; rw [hy2]; exact e2
        · rw [hy1] at e; cases e
      unfold calculateTest
      rw [hr]
      have hs : sumAxis0 C.sz r = .ok (r.foldl (fun acc r => List.zipWith (· + ·) acc r) (List.replicate C.sz 0)) := by
        unfold sumAxis0
        rw [if_pos (by simpa using hlen)]
      have hfold : ∀ (l : List (List α)) (acc : List α), (∀ y ∈ l, y.length = C.sz) → acc.length = C.sz →
          (l.foldl (fun acc r => List.zipWith (· + ·) acc r) acc).length = C.sz := by
        intro l
        induction l with
        | nil => intro acc _ ha; simpa using ha
        | cons y ys ih =>
          intro acc hl ha
          rw [List.foldl_cons]
          apply ih
          · exact fun z hz => hl z (by simp [hz])
          · simp [ha, hl y (by simp)]
      show ∃ y, (sumAxis0 C.sz r).bind _ = _ ∧ _
      rw [hs]
      exact ⟨_, rfl, by simpa using hfold r _ hlen (by simp)⟩
  · rintro ⟨k, hk, hc⟩
    exact hbad ⟨k, hk, ((h k hk).weighted c).2 hc⟩

/-- the variables that the scoring loop uses -/
def Uses (C : Cfg α) (k : Key) : Prop := (C.data k).isSome = true ∧ (k = .T → C.useTemp = true)

/-- One species: an array, or IndexError; IndexError if a file that is used lacks the line. -/
theorem testFor_index (rows : Key → List (Row α)) (c : Nat) (h : ∀ k, Uses C k → HasSet C k (rows k)) (htrap : C.trap = false)
    (hT : C.useTemp = true → (C.data .T).isSome = true) (hT2 : C.hybrid = false → (C.data .T).isSome = true → C.useTemp = true)
    (hv : ∀ k, C.vars k ≠ 0 ↔ Uses C k) (hdz : Uses C .DZ) (hp : C.hybrid = false → polFlag C = true) :
    OkOrIndex C.sz (testFor C c) ∧ ((∃ k, Uses C k ∧ (rows k).length ≤ c) → testFor C c = .error .indexError) := by
  have hused : ∀ k ∈ usedKeys C, Uses C k := by
    intro k hk
    unfold usedKeys at hk
    obtain ⟨h1, h2⟩ := List.mem_filter.mp hk
    refine ⟨h2, ?_⟩
    rintro rfl
    cases hh : C.hybrid with
    | false => exact hT2 hh h2
    | true => rw [hh] at h1; simp [varlist] at h1
  have hcalc := calculateTest_index rows c (fun k hk => h k (hused k hk))
  have hpol : polTest C c = calculateTest C c := by unfold polTest; simp [htrap]
  have hflag : polFlag C = true ↔ ∃ k ∈ [Key.DR, .KD, .LD, .RH], Uses C k := by
    unfold polFlag
    simp only [Bool.or_eq_true, bne_iff_ne, hv, List.mem_cons, List.not_mem_nil, or_false, exists_eq_or_imp, exists_eq_left]
    tauto
  unfold testFor
  cases hh : C.hybrid with
  | false =>
    simp only [Bool.false_eq_true, if_false, hp hh, if_true, hpol]
    refine ⟨hcalc.1, ?_⟩
    rintro ⟨k, hk, hc⟩
    refine hcalc.2 ⟨k, ?_, hc⟩
    unfold usedKeys
    refine List.mem_filter.mpr ⟨?_, hk.1⟩
    rw [hh]; cases k <;> simp [varlist]
  | true =>
    simp only [if_true]
    have hd := (h _ hdz).member c
    have hvd : C.vars .DZ ≠ 0 := (hv _).mpr hdz
    have hpolk : ∀ k, Uses C k → k ≠ .T → k ≠ .DZ → polFlag C = true ∧ k ∈ usedKeys C := by
      intro k hk h1 h2
      constructor
      · rw [hflag]; exact ⟨k, by cases k <;> simp_all, hk⟩
      · unfold usedKeys
        refine List.mem_filter.mpr ⟨?_, hk.1⟩
        rw [hh]; cases k <;> simp_all [varlist]
    -- the polarimetric part
    have s1 : ∀ (x : Except PyErr (Option (List α))),
        x = (if polFlag C = true then (do let t ← polTest C c; .ok (some t)) else .ok none) →
        ((∃ o, x = .ok o ∧ ∀ y, o = some y → y.length = C.sz) ∨ x = .error .indexError) ∧
        ((∃ k, Uses C k ∧ k ≠ .T ∧ k ≠ .DZ ∧ (rows k).length ≤ c) → x = .error .indexError) := by
      rintro x rfl
      rw [hpol]
      by_cases hf : polFlag C = true
      · rw [if_pos hf]
        refine ⟨?_, ?_⟩
        · rcases hcalc.1 with ⟨y, e1, e2⟩ | e
          · rw [e1]; exact Or.inl ⟨some y, rfl, by rintro _ ⟨⟩; exact e2⟩
          · rw [e]; exact Or.inr rfl
        · rintro ⟨k, hk, h1, h2, hc⟩
          rw [hcalc.2 ⟨k, (hpolk k hk h1 h2).2, hc⟩]; rfl
      · rw [if_neg hf]
        refine ⟨Or.inl ⟨none, rfl, by simp⟩, ?_⟩
        rintro ⟨k, hk, h1, h2, _⟩
        exact absurd (hpolk k hk h1 h2).1 hf
    generalize hx : (if polFlag C = true then (do let t ← polTest C c; .ok (some t)) else .ok none : Except PyErr (Option (List α))) = x
    obtain ⟨a1, a2⟩ := s1 x hx.symm
    rcases a1 with ⟨o, rfl, ho⟩ | rfl
    · have hno : ¬ ∃ k, Uses C k ∧ k ≠ .T ∧ k ≠ .DZ ∧ (rows k).length ≤ c := by
        intro hk; cases a2 hk
      simp only [bind, Except.bind]
      by_cases ht : C.useTemp = true
      · have hTu : Uses C .T := ⟨hT ht, fun _ => ht⟩
        have hm := (h _ hTu).member c
        simp only [ht, if_true]
        rcases hm.1 with ⟨t, e1, e2⟩ | e
        · have hT' : ¬ (rows .T).length ≤ c := fun hc => by rw [hm.2 hc] at e1; cases e1
          simp only [e1]
          have key : ∀ v : List α, v.length = C.sz →
              OkOrIndex C.sz (match Fhc.member C .DZ c with
                | .error e => .error e
                | .ok b => .ok (mulArr v b)) ∧
              ((∃ k, Uses C k ∧ (rows k).length ≤ c) → (match Fhc.member C .DZ c with
                | .error e => (.error e : Except PyErr (List α))
                | .ok b => .ok (mulArr v b)) = .error .indexError) := by
            intro v hv'
            rcases hd.1 with ⟨d, e3, e4⟩ | e
            · rw [e3]
              refine ⟨Or.inl ⟨_, rfl, by simp [mulArr, hv', e4]⟩, ?_⟩
              rintro ⟨k, hk, hc⟩
              by_cases k1 : k = .T
              · subst k1; exact absurd hc hT'
              · by_cases k2 : k = .DZ
                · subst k2; rw [hd.2 hc] at e3; cases e3
                · exact absurd ⟨k, hk, k1, k2, hc⟩ hno
            · rw [e]; exact ⟨Or.inr rfl, fun _ => rfl⟩
          cases o with
          | none =>
            have := key t e2
            rcases hd.1 with ⟨d, e3, e4⟩ | e
            · simpa [e3, hvd] using this
            · simpa [e, hvd] using this
          | some p =>
            have := key (mulArr p t) (by simp [mulArr, ho p rfl, e2])
            rcases hd.1 with ⟨d, e3, e4⟩ | e
            · simpa [e3, hvd] using this
            · simpa [e, hvd] using this
        · cases o <;> simp only [e] <;> exact ⟨Or.inr rfl, fun _ => by first | rfl | trivial⟩
      · have hTn : ∀ k, Uses C k → k ≠ .T := by rintro k hk rfl; exact ht (hk.2 rfl)
        simp only [if_neg ht]
        rcases hd.1 with ⟨d, e3, e4⟩ | e
        · have hb : ¬ ∃ k, Uses C k ∧ (rows k).length ≤ c := by
            rintro ⟨k, hk, hc⟩
            by_cases k2 : k = .DZ
            · subst k2; rw [hd.2 hc] at e3; cases e3
            · exact hno ⟨k, hk, hTn k hk, k2, hc⟩
          cases o with
          | none => simp only [e3, hvd, ne_eq, not_false_eq_true, if_true]; exact ⟨Or.inl ⟨_, rfl, e4⟩, fun hx => absurd hx hb⟩
          | some p =>
            simp only [e3, hvd, ne_eq, not_false_eq_true, if_true]
            exact ⟨Or.inl ⟨_, rfl, by simp [mulArr, ho p rfl, e4]⟩, fun hx => absurd hx hb⟩
        · cases o <;> simp only [e, hvd, ne_eq, not_false_eq_true, if_true] <;> exact ⟨Or.inr rfl, fun _ => by first | rfl | trivial⟩
    · exact ⟨Or.inr rfl, fun _ => rfl⟩

end

variable {tab : Key → List Numbers} {P : Key → Bool} {gs : List (Key → XR)} {hybrid : Bool} {f : ℝ} {I : Inputs XR}

/-- the rows of variable `k` in the parameter sets of a table -/
noncomputable def rowsAt (tab : Key → List Numbers) (f : ℝ) (k : Key) : List (Row XR) :=
  if k = .T then rowsOf (tab .T) (fin f) else rowsOf (tab k) 1.0

theorem rowsAt_length (k : Key) : (rowsAt tab f k).length = (tab k).length := by
  unfold rowsAt rowsOf; split_ifs with h
  · subst h; simp
  · simp

theorem width_ne (hf : 0 < f) {ns : List Numbers} (h : ∀ n ∈ ns, n.a ≠ 0) : ∀ r ∈ rowsOf ns (fin f), (r.a ==. (0 : XR)) = false := by
  intro r hr
  obtain ⟨n, hn, rfl⟩ := List.mem_map.mp hr
  have ha' : (n.a : ℝ) ≠ 0 := by exact_mod_cast h n hn
  have : (PyFloat.lit n.a / fin f : XR) = fin (n.a / f) := by simp [fdiv hf.ne']
  dsimp only
  rw [this]
  simp [ha', hf.ne']

theorem tests_short {method : String} {useTemp : Bool} (hA : Works method useTemp P hybrid) (hf : 0 < f)
    (hwidth : ∀ k, ∀ n ∈ tab k, n.a ≠ 0) (h : IsGates I P gs)
    (dz : NdArray XR) (hdz : dz.data = gs.map (fun g => g .DZ)) (W : Key → Nat → XR) (types : List Nat) (k : Key) (hk : P k = true)
    (hkT : k = .T → useTemp = true) (c : Nat) (hc : c ∈ types) (hs : (tab k).length ≤ c) :
    getTestList (mkCfg I dz (effTemp P useTemp) W (setsOfTab tab (effTemp P useTemp) (fin f)) hybrid false) types =
      .error .indexError := by
  set C := mkCfg I dz (effTemp P useTemp) W (setsOfTab tab (effTemp P useTemp) (fin f)) hybrid false with hC
  have hone : (1.0 : XR) = fin 1 := by rw [fsci]; norm_num
  have hdata : ∀ k, C.data k = if P k then some (gs.map (fun g => g k)) else none := h
  have hsz : C.sz = gs.length := by show dz.data.length = _; rw [hdz]; simp
  have huse : ∀ k, Uses C k ↔ (P k = true ∧ (k = .T → useTemp = true)) := by
    intro k
    unfold Uses
    rw [hdata]
    have : C.useTemp = effTemp P useTemp := rfl
    rw [this]
    cases hp : P k with
    | false => simp
    | true =>
      simp only [if_true, Option.isSome_some, true_and]
      constructor
      · intro hx hT; have := hx hT; simp [effTemp] at this; exact this.2
      · intro hx hT; subst hT; simp [effTemp, hp, hx rfl]
  have hset : ∀ k, Uses C k → HasSet C k (rowsAt tab f k) := by
    intro k hk
    have hk' := (huse k).mp hk
    refine ⟨⟨_, by rw [hdata, if_pos hk'.1], by simp [hsz]⟩, ?_, ?_⟩
    · show setsOfTab tab (effTemp P useTemp) (fin f) k = _
      unfold rowsAt
      by_cases hT : k = .T
      · subst hT
        simp [setsOfTab, effTemp, hk'.1, hk'.2 rfl]
      · rw [if_neg hT]
        cases k <;> first | rfl | exact absurd rfl hT
    · unfold rowsAt
      split_ifs with hT
      · exact width_ne hf (hwidth .T)
      · rw [hone]; exact width_ne one_pos (hwidth k)
  have hvars : ∀ k, C.vars k ≠ 0 ↔ Uses C k := by
    intro k
    rw [huse]
    show fhcVars I (effTemp P useTemp) k ≠ 0 ↔ _
    rw [h.vars]
    cases hp : P k with
    | false => simp
    | true =>
      by_cases hT : k = .T
      · subst hT; cases useTemp <;> simp [effTemp, hp]
      · simp [hT]
  have hlin : C.hybrid = false → polFlag C = true := by
    intro hh
    have := hA.lin hh
    obtain ⟨k, hk⟩ := List.exists_mem_of_ne_nil _ this
    obtain ⟨h1, h2⟩ := List.mem_filter.mp hk
    have hT : k ≠ .T := by rintro rfl; simp [pol] at h1
    have hv : C.vars k ≠ 0 := (hvars k).mpr ((huse k).mpr ⟨h2, fun e => absurd e hT⟩)
    unfold polFlag
    simp [pol] at h1
    rcases h1 with rfl | rfl | rfl | rfl <;> simp [hv]
  have key : ∀ c, _ := fun c => testFor_index (C := C) (rowsAt tab f) c hset rfl
    (by intro ht
        have : effTemp P useTemp = true := ht
        rw [hdata]; simp [effTemp] at this; simp [this.1])
    (by intro hh hT
        rw [hdata] at hT
        have hp : P .T = true := by cases hp : P .T <;> simp [hp] at hT ⊢
        show effTemp P useTemp = true
        simp [effTemp, hp, hA.linT hh hp])
    hvars ((huse _).mpr ⟨hA.dz, by intro e; cases e⟩) hlin
  unfold getTestList
  apply mapM_bad
  · intro c _
    rcases (key c).1 with ⟨y, hy, _⟩ | he
    · exact Or.inl ⟨y, hy⟩
    · exact Or.inr he
  · exact ⟨c, hc, (key c).2 ⟨k, (huse k).mpr ⟨hk, hkT⟩, by rw [rowsAt_length]; exact hs⟩⟩

theorem useTemp_eq' (h : IsGates I P gs) (flag : Bool) : (if I.T.isNone = true then false else flag) = effTemp P flag := by
  rw [h.T_isNone]; cases hp : P .T <;> simp [effTemp, hp]

/-- **C119**: with parameter files in which a variable that is used has fewer lines than the reflectivity file, `csu_fhc_summer` raises
IndexError, whatever the gates, weights and `n_types`. -/
theorem C119_summer {fs : Files} {d : String} (verbose : Bool) (A : SummerArgs XR) (I : Inputs XR) (P : Key → Bool) (gs : List (Key → XR))
    (hybrid : Bool) (f : ℝ) (tab : Key → List Numbers) (hA : Works A.method A.useTemp P hybrid) (htrap : A.useTrap = false)
    (hf : 0 < f) (hfe : A.tempFactor = fin f) (hwidth : ∀ k, ∀ n ∈ tab k, n.a ≠ 0)
    (hfiles : HoldsAll fs d .summer A.band (P .T && A.useTemp) tab) (h : IsGates I P gs)
    (k : Key) (hk : P k = true) (hkT : k = .T → A.useTemp = true) (hshort : (tab k).length < (tab .DZ).length) :
    csuFhcSummerF fs d verbose A I = .error .indexError := by
  obtain ⟨dz, h1, h2⟩ := h.dz hA.dz
  have hx := C113_sets (α := XR) hfiles A.tempFactor
  unfold csuFhcSummerF
  rw [h1]
  dsimp only
  rw [useTemp_eq' h, show effTemp P A.useTemp = (P .T && A.useTemp) from rfl, hx]
  simp only [bind, Except.bind, hA.method]
  rw [htrap, hfe, show (P .T && A.useTemp) = effTemp P A.useTemp from rfl,
    tests_short hA hf hwidth h dz h2 _ _ k hk hkT (tab k).length _ le_rfl]
  simpa [setsOfTab, rowsOf] using hshort

/-- **C119**: the winter classifier raises IndexError if a file that is used lacks one of the lines it needs: the first four, or with `warm`
the fifth and sixth. -/
theorem C119_winter {fs : Files} {d : String} (verbose : Bool) (A : WinterArgs XR) (I : Inputs XR) (P : Key → Bool) (gs : List (Key → XR))
    (hybrid : Bool) (f : ℝ) (tab : Key → List Numbers) (hA : Works A.method A.useTemp P hybrid)
    (hf : 0 < f) (hfe : A.tempFactor = fin f) (hwidth : ∀ k, ∀ n ∈ tab k, n.a ≠ 0)
    (hfiles : HoldsAll fs d .winter A.band (P .T && A.useTemp) tab) (h : IsGates I P gs)
    (k : Key) (hk : P k = true) (hkT : k = .T → A.useTemp = true) (hshort : (tab k).length < if A.warm then 6 else 4) :
    csuFhcWinterF fs d verbose A I = .error .indexError := by
  obtain ⟨dz, h1, h2⟩ := h.dz hA.dz
  have hx := C113_sets (α := XR) hfiles A.tempFactor
  unfold csuFhcWinterF
  rw [h1]
  dsimp only
  rw [useTemp_eq' h, show effTemp P A.useTemp = (P .T && A.useTemp) from rfl, hx]
  simp only [bind, Except.bind, hA.method]
  rw [hfe, show (P .T && A.useTemp) = effTemp P A.useTemp from rfl,
    tests_short hA hf hwidth h dz h2 _ _ k hk hkT (if A.warm then 5 else 3) _ (by split_ifs at hshort ⊢ <;> omega)]
  unfold winterTypes
  split_ifs <;> simp

/-- **C119**: the melting-layer classifier. -/
theorem C119_ml {fs : Files} {d : String} (verbose : Bool) (A : MlArgs XR) (I : Inputs XR) (P : Key → Bool) (gs : List (Key → XR))
    (hybrid : Bool) (f : ℝ) (tab : Key → List Numbers) (hA : Works A.method A.useTemp P hybrid)
    (hf : 0 < f) (hfe : A.tempFactor = fin f) (hwidth : ∀ k, ∀ n ∈ tab k, n.a ≠ 0)
    (hfiles : HoldsAll fs d .ml A.band (P .T && A.useTemp) tab) (h : IsGates I P gs)
    (k : Key) (hk : P k = true) (hkT : k = .T → A.useTemp = true) (hshort : (tab k).length < (tab .DZ).length) :
    csuFhcMlF fs d verbose A I = .error .indexError := by
  obtain ⟨dz, h1, h2⟩ := h.dz hA.dz
  have hx := C113_sets (α := XR) hfiles A.tempFactor
  unfold csuFhcMlF
  rw [h1]
  dsimp only
  rw [useTemp_eq' h, show effTemp P A.useTemp = (P .T && A.useTemp) from rfl, hx]
  simp only [bind, Except.bind, hA.method]
  rw [hfe, show (P .T && A.useTemp) = effTemp P A.useTemp from rfl,
    tests_short hA hf hwidth h dz h2 _ _ k hk hkT (tab k).length _ le_rfl]
  simpa [setsOfTab, rowsOf] using hshort

/-- the winter classifier on a directory where every file has only two lines -/
example : csuFhcWinterF exFiles "/my/" true ({ band := "Ka" } : WinterArgs XR)
    (inputsOf (fun _ => true) [fun _ => fin 30, fun _ => XR.nan]) = .error .indexError := by
  refine C119_winter true _ _ (fun _ => true) _ false 1 (fun _ => exNumbers)
    ⟨by show methodOf "linear" = _; decide, rfl, by intro _; decide, fun _ _ => rfl⟩ one_pos (by show (1 : XR) = _; simp)
    (by intro k n hn; simp [exNumbers] at hn; rcases hn with rfl | rfl <;> norm_num) (exHoldsAll _ _ _)
    (isGates_inputsOf _ _) .DR rfl (by intro h; cases h) (by decide)

end Csu.Csv
