import Verif.Lemmas.FhcX
/-! # From the API of the classifiers to the per-gate score -/
namespace Csu.Fhc
open Csu PyFloat Tables
variable {α : Type} [PyFloat α]

/-- `gs` are the gates of the inputs `I`, and `P` says which variables are supplied: the data of every supplied variable
`k` is the list of the gates' values of `k`. -/
def IsGates (I : Inputs α) (P : Key → Bool) (gs : List (Key → α)) : Prop :=
  ∀ k, (I.get k).map (·.data) = if P k then some (gs.map (fun g => g k)) else none

/-- Inputs whose supplied arrays all have the same number of elements consist of gates. -/
theorem exists_gates (I : Inputs α) (n : Nat) (h : ∀ k a, I.get k = some a → a.data.length = n) :
    ∃ P gs, gs.length = n ∧ IsGates I P gs := by
  refine ⟨fun k => (I.get k).isSome,
    (List.range n).map (fun i k => (((I.get k).map (·.data)).getD []).getD i PyFloat.nan), by simp, ?_⟩
  intro k
  cases hk : I.get k with
  | none => simp [hk]
  | some a =>
    have := h k a hk
    rw [if_pos (by simp [hk])]
    simp only [Option.map_some, List.map_map]
    congr 1
    apply List.ext_getElem
    · simp [this]
    · intro i h1 h2
      simp [hk, h1]

variable {I : Inputs α} {P : Key → Bool} {gs : List (Key → α)}

theorem IsGates.isSome (h : IsGates I P gs) (k : Key) : (I.get k).isSome = P k := by
  have := h k
  cases hk : I.get k <;> cases hp : P k <;> simp_all

theorem IsGates.vars (h : IsGates I P gs) (u : Bool) (k : Key) :
    fhcVars I u k = if P k && (k != .T || u) then 1 else 0 := by
  unfold fhcVars
  rw [h.isSome]
  cases u <;> cases hp : P k <;> by_cases hk : k = .T <;> simp [hk, hp]

theorem IsGates.dz (h : IsGates I P gs) (hP : P .DZ = true) :
    ∃ dz, I.dz = some dz ∧ dz.data = gs.map (fun g => g .DZ) := by
  have := h .DZ
  rw [if_pos hP] at this
  cases hd : I.dz with
  | none => simp [Inputs.get, hd] at this
  | some d => exact ⟨d, rfl, by simpa [Inputs.get, hd] using this⟩

theorem IsGates.T_isNone (h : IsGates I P gs) : I.T.isNone = !P .T := by
  have := h.isSome .T
  rw [← this]; simp [Inputs.get]

/-- `use_temp` after `if T is None: use_temp = False` -/
def effTemp (P : Key → Bool) (useTemp : Bool) : Bool := P .T && useTemp

/-- canonical configuration: depends on the supplied variables only, not on the gates -/
def cfg (P : Key → Bool) (useTemp : Bool) (w : Key → Nat → α) (sets : Sets α) (hybrid trap : Bool) : Cfg α :=
  { vars := fun k => if P k && (k != .T || effTemp P useTemp) then 1 else 0
    data := fun k => if P k then some [] else none
    sets := sets, w := w, sz := 0, hybrid := hybrid, useTemp := effTemp P useTemp, trap := trap }

theorem gScore_cfg (h : IsGates I P gs) (dz : NdArray α) (u : Bool) (w : Key → Nat → α) (sets : Sets α)
    (hybrid trap : Bool) (c : Nat) (g : Key → α) :
    gScore (mkCfg I dz (effTemp P u) w sets hybrid trap) c g = gScore (cfg P u w sets hybrid trap) c g := by
  have hv : (mkCfg I dz (effTemp P u) w sets hybrid trap).vars = (cfg P u w sets hybrid trap).vars := by
    funext k; exact h.vars _ k
  have hu : usedKeys (mkCfg I dz (effTemp P u) w sets hybrid trap) = usedKeys (cfg P u w sets hybrid trap) := by
    unfold usedKeys
    show (varlist hybrid).filter _ = (varlist hybrid).filter _
    congr 1
    funext k
    show (radarData I k).isSome = _
    have := h.isSome k
    simp only [radarData, Option.isSome_map, this, cfg]
    cases P k <;> rfl
  have hp : polFlag (mkCfg I dz (effTemp P u) w sets hybrid trap) = polFlag (cfg P u w sets hybrid trap) := by
    unfold polFlag; rw [hv]
  have hw : weightSum (mkCfg I dz (effTemp P u) w sets hybrid trap) c = weightSum (cfg P u w sets hybrid trap) c := by
    unfold weightSum; rw [hv]; rfl
  have hg : ∀ g, gPol (mkCfg I dz (effTemp P u) w sets hybrid trap) c g = gPol (cfg P u w sets hybrid trap) c g := by
    intro g
    unfold gPol
    rw [hu, hw]
    congr 2
    apply List.map_congr_left
    intro k _
    unfold gTerm
    rw [hv]; rfl
  unfold gScore
  rw [hp, hg]
  rfl

/-- no width of the table is zero as a float -/
def NoZeroWidth (α : Type) [PyFloat α] (s : Season) (band : String) (tempFactor : α) : Prop :=
  ∀ k rows r, csv band s k = some rows → r ∈ rows →
    ((rawVal r.a / (if k = .T then tempFactor else (1.0 : α)) : α) ==. 0) = false

/-- the parameter sets loaded for a season and band that exist -/
def setsOf (s : Season) (useTemp : Bool) (tempFactor : α) (band : String) : Sets α := fun k => match k with
  | .T => if useTemp then (csv band s .T).map (fun r => getBetaSet r tempFactor) else none
  | k => (csv band s k).map (fun r => getBetaSet r 1.0)

theorem getMbfSets_ok (s : Season) (u : Bool) (f : α) (band : String) (h : (csv band s .DZ).isSome = true) :
    getMbfSets s u f band = .ok (setsOf s u f band) := by
  have : (csv band s .DZ).isNone = false := by
    cases hc : csv band s .DZ <;> simp_all
  simp only [getMbfSets, this, Bool.false_eq_true, if_false]
  rfl

theorem setsOf_eq (s : Season) (u : Bool) (f : α) (band : String) (k : Key) (hk : k = .T → u = true) :
    setsOf s u f band k = (csv band s k).map (fun r => getBetaSet r (if k = .T then f else 1.0)) := by
  cases k <;> simp [setsOf]
  simp [hk rfl]

theorem csv_isSome (band : String) (s s' : Season) (k k' : Key) : (csv band s k).isSome = (csv band s' k').isSome := by
  unfold csv; split_ifs <;> rfl

/-- the scoring loop succeeds on the rows of the tables -/
theorem ready (s : Season) (band : String) (f : α) (n : Nat) (hb : (csv band s .DZ).isSome = true)
    (hrows : ∀ k rows, csv band s k = some rows → rows.length = n) (hw : NoZeroWidth α s band f)
    (h : IsGates I P gs) (hP : P .DZ = true) (dz : NdArray α) (hdz : dz.data = gs.map (fun g => g .DZ)) (u : Bool)
    (w : Key → Nat → α) (hybrid trap : Bool)
    (hlin : hybrid = false → FhcSpec.pol.filter P ≠ []) (hlinT : hybrid = false → P .T = true → u = true ∨ trap = true)
    (htrap : trap = true → n ≤ 10) (c : Nat) (hc : c < n) :
    Ready (mkCfg I dz (effTemp P u) w (setsOf s (effTemp P u) f band) hybrid trap) P gs c where
  data := h
  sz := by show dz.data.length = _; rw [hdz]; simp
  set := by
    intro k hk hT0
    have hT : k = .T → effTemp P u = true := hT0
    have hcs : (csv band s k).isSome = true := by rw [csv_isSome band s s k .DZ]; exact hb
    obtain ⟨rows, hr⟩ := Option.isSome_iff_exists.mp hcs
    have hlen := hrows k rows hr
    have e : setsOf s (effTemp P u) f band k = some (getBetaSet rows (if k = .T then f else 1.0)) := by
      rw [setsOf_eq s _ f band k hT, hr]; rfl
    have hcl : c < rows.length := by omega
    refine ⟨getBetaSet rows (if k = .T then f else 1.0), ⟨rawVal rows[c].m / (if k = .T then f else 1.0),
      rawVal rows[c].a / (if k = .T then f else 1.0), rawVal rows[c].b / (if k = .T then f else 1.0)⟩, e, ?_, ?_⟩
    · simp [getBetaSet, hcl]
    · exact hw k rows rows[c] hr (List.getElem_mem _)
  dz := hP
  vdz := by
    show fhcVars I (effTemp P u) .DZ ≠ 0
    rw [h.vars]; simp [hP]
  temp := by
    intro ht
    have : effTemp P u = true := ht
    simp [effTemp] at this; exact this.1
  lin := by
    intro hh
    have := hlin hh
    show polFlag _ = true
    unfold polFlag
    have hv : (mkCfg I dz (effTemp P u) w (setsOf s (effTemp P u) f band) hybrid trap).vars = _ :=
      funext (h.vars (effTemp P u))
    rw [hv]
    revert this
    cases h1 : P .DR <;> cases h2 : P .KD <;> cases h3 : P .RH <;> cases h4 : P .LD <;>
      simp [FhcSpec.pol, h1, h2, h3, h4]
  linT := by
    intro hh hT
    rcases hlinT hh hT with h1 | h1
    · left; show effTemp P u = true; simp [effTemp, hT, h1]
    · right; exact h1
  trap := by
    intro ht
    have := htrap ht
    omega

/-- `summerRows` on gates -/
theorem summerRows_ok (A : SummerArgs α) (hb : (csv A.band .summer .DZ).isSome = true)
    (hrows : ∀ k rows, csv A.band .summer k = some rows → rows.length = 10)
    (hw : NoZeroWidth α .summer A.band A.tempFactor) (hybrid : Bool) (hm : methodOf A.method = some hybrid)
    (h : IsGates I P gs) (hP : P .DZ = true) (hlin : hybrid = false → FhcSpec.pol.filter P ≠ [])
    (hlinT : hybrid = false → P .T = true → A.useTemp = true ∨ A.useTrap = true) :
    ∃ dz, I.dz = some dz ∧ dz.data = gs.map (fun g => g .DZ) ∧
    summerRows A I = .ok (some (dz, (List.range 10).map (fun c => gs.map (gScore (cfg P A.useTemp (fun k _ => A.weights k)
      (setsOf .summer (effTemp P A.useTemp) A.tempFactor A.band) hybrid A.useTrap) c)))) := by
  obtain ⟨dz, hd1, hd2⟩ := h.dz hP
  refine ⟨dz, hd1, hd2, ?_⟩
  have hu : (if I.T.isNone then false else A.useTemp) = effTemp P A.useTemp := by
    rw [h.T_isNone]; cases hp : P .T <;> simp [effTemp, hp]
  obtain ⟨rows, hr⟩ := Option.isSome_iff_exists.mp hb
  have hlen : ((setsOf .summer (effTemp P A.useTemp) A.tempFactor A.band .DZ).getD []).length = 10 := by
    rw [setsOf_eq _ _ _ _ _ (by simp), hr]
    simpa [getBetaSet] using hrows .DZ rows hr
  have hlist := getTestList_ok (List.range 10) (fun c hc =>
    ready .summer A.band A.tempFactor 10 hb hrows hw h hP dz hd2 A.useTemp (fun k _ => A.weights k) hybrid A.useTrap
      hlin hlinT (fun _ => le_refl _) c (List.mem_range.mp hc))
  simp only [summerRows, hd1, hu, getMbfSets_ok .summer (effTemp P A.useTemp) A.tempFactor A.band hb, hm, bind,
    Except.bind, hlen, hlist]
  simp only [fun c => funext (gScore_cfg h dz A.useTemp (fun k _ => A.weights k)
    (setsOf .summer (effTemp P A.useTemp) A.tempFactor A.band) hybrid A.useTrap c)]

end Csu.Fhc
