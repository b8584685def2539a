import Verif.Lemmas.Csv
import Verif.XReal
/-!
# C111, C112: the parameter files

`Files` is a file system (path to contents).
-/
namespace Csu.Csv
open Csu PyFloat Tables Fhc
variable {α : Type} [PyFloat α]

/-! ## Specification -/

/-- The directory `dir` (a path ending in a separator) holds exactly the files shipped with the package, byte for byte. -/
def Installed (fs : Files) (dir : String) : Prop := ∀ name, fs (dir ++ name) = shippedFiles.lookup name

/-- The files of one season and band that a call reads: the temperature file only if temperature is used. -/
def Reads (useTemp : Bool) (k : Key) : Prop := k = .T → useTemp = true

/-- The files read with directory `d` in file system `fs` are those read with `d'` in `fs'`. -/
def SameFiles (fs : Files) (d : String) (fs' : Files) (d' : String) (s : Season) (band : String) (useTemp : Bool) : Prop :=
  ∀ k, Reads useTemp k → fs (d ++ fileName band s k) = fs' (d' ++ fileName band s k)

/-- is the temperature used in a call? -/
def tempUsed (flag : Bool) (I : Inputs α) : Bool := if I.T.isNone then false else flag

/-! ## C111: the shipped files -/

/-- C111: reading and parsing the shipped files gives, for every band, season and `temp_factor`, the tables all other
theorems are about; another band is a FileNotFoundError. -/
theorem C111_tables {fs : Files} {dir : String} (h : Installed fs dir) (s : Season) (useTemp : Bool) (tf : α)
    (band : String) : getMbfSetsF fs dir s useTemp tf band = getMbfSets s useTemp tf band := by
  by_cases hb : ∃ rows : Key → List RawRow, ∀ k, csv band s k = some (rows k)
  · obtain ⟨rows, hr⟩ := hb
    have rd : ∀ (k : Key) (f : α), getBetaSetF fs (dir ++ fileName band s k) f = .ok (getBetaSet (rows k) f) := by
      intro k f
      obtain ⟨t, h1, h2⟩ := shipped_file hr k
      exact getBetaSetF_parses f ((h _).trans h1) h2
    unfold getMbfSetsF getMbfSets
    simp only [rd, hr]
    cases useTemp <;>
    · show Except.ok _ = Except.ok _
      congr 1
      funext k
      cases k <;> rfl
  · have h1 : band ≠ "S" := fun e => hb ⟨fun k => csvS s k, fun k => by subst e; rfl⟩
    have h2 : band ≠ "C" := fun e => hb ⟨fun k => csvC s k, fun k => by subst e; rfl⟩
    have h3 : band ≠ "X" := fun e => hb ⟨fun k => csvX s k, fun k => by subst e; rfl⟩
    have hn : fs (dir ++ fileName band s .DZ) = none := (h _).trans (lookup_none h1 h2 h3 s .DZ)
    unfold getMbfSetsF getMbfSets
    have : getBetaSetF fs (dir ++ fileName band s .DZ) (1.0 : α) = .error .fileNotFoundError := by
      unfold getBetaSetF; rw [hn]
    simp only [this]
    have hc : csv band s .DZ = none := by unfold csv; rw [if_neg h1, if_neg h2, if_neg h3]
    rw [hc]; rfl

/-- C111: with the shipped directory the classifiers are the ones of the other theorems. -/
theorem C111_summer {fs : Files} {dir : String} (h : Installed fs dir) (verbose : Bool) (A : SummerArgs α)
    (I : Inputs α) : csuFhcSummerF fs dir verbose A I = csuFhcSummerV verbose false A I := by
  unfold csuFhcSummerF csuFhcSummerV getMbfSetsPlot
  cases I.dz with
  | none => rfl
  | some dz =>
    dsimp only
    rw [C111_tables h]
    cases getMbfSets Season.summer (if I.T.isNone = true then false else A.useTemp) A.tempFactor A.band <;> rfl

theorem C111_winter {fs : Files} {dir : String} (h : Installed fs dir) (verbose : Bool) (n : Nat) (A : WinterArgs α)
    (I : Inputs α) : csuFhcWinterF fs dir verbose A I = csuFhcWinterV verbose false n A I := by
  unfold csuFhcWinterF csuFhcWinterV getMbfSetsPlot
  cases I.dz with
  | none => rfl
  | some dz =>
    dsimp only
    rw [C111_tables h]
    cases getMbfSets Season.winter (if I.T.isNone = true then false else A.useTemp) A.tempFactor A.band <;> rfl

theorem C111_ml {fs : Files} {dir : String} (h : Installed fs dir) (verbose : Bool) (A : MlArgs α)
    (I : Inputs α) : csuFhcMlF fs dir verbose A I = csuFhcMlV verbose false A I := by
  unfold csuFhcMlF csuFhcMlV getMbfSetsPlot
  cases I.dz with
  | none => rfl
  | some dz =>
    dsimp only
    rw [C111_tables h]
    cases getMbfSets Season.ml (if I.T.isNone = true then false else A.useTemp) A.tempFactor A.band <;> rfl

theorem C111_melting_layer {fs : Files} {dir : String} (h : Installed fs dir) (env : Env) (A : MeltArgs α)
    (F : Fields α) : meltingLayerF fs dir env A F = meltingLayer env A F := by
  unfold meltingLayerF meltingLayer; rw [C111_ml h]; rfl

theorem C111_run_winter {fs : Files} {dir : String} (h : Installed fs dir) (env : Env) (A : MeltArgs α)
    (F : Fields α) : runWinterF fs dir env A F = runWinter env A F := by
  unfold runWinterF runWinter
  rw [C111_melting_layer h]
  have : ∀ w, winterRowsF fs dir env w F = winterRows env w F := by
    intro w; unfold winterRowsF winterRows; rw [C111_winter h env.verbose 7]; rfl
  simp only [this]
  rfl

/-- a path relative to a directory -/
def relative (dir p : String) : Option String :=
  if dir.toList.isPrefixOf p.toList then some (String.ofList (p.toList.drop dir.toList.length)) else none

theorem relative_append (dir name : String) : relative dir (dir ++ name) = some name := by
  unfold relative
  rw [String.toList_append, if_pos (List.isPrefixOf_iff_prefix.mpr (List.prefix_append _ _)), List.drop_left,
    String.ofList_toList]

/-- A file system that holds the package's files in `dir`, and nothing else. -/
def installedAt (dir : String) : Files := fun p => (relative dir p).bind (fun n => shippedFiles.lookup n)

theorem installed_at (dir : String) : Installed (installedAt dir) dir := by
  intro name; unfold installedAt; rw [relative_append]; rfl

example : getMbfSetsF (installedAt "/pkg/") "/pkg/" .summer true (1.0 : XR) "C" = getMbfSets .summer true 1.0 "C" :=
  C111_tables (installed_at _) _ _ _ _

/-! ## C112: a directory of one's own -/

/-- C112: the parameter sets depend only on the (five or) six files of that season and band. -/
theorem C112_sets_congr {fs fs' : Files} {d d' : String} {s : Season} {band : String} {useTemp : Bool} (tf : α)
    (h : SameFiles fs d fs' d' s band useTemp) :
    getMbfSetsF fs d s useTemp tf band = getMbfSetsF fs' d' s useTemp tf band := by
  have rd : ∀ (k : Key) (f : α), Reads useTemp k →
      getBetaSetF fs (d ++ fileName band s k) f = getBetaSetF fs' (d' ++ fileName band s k) f := by
    intro k f hk; unfold getBetaSetF; rw [h k hk]
  unfold getMbfSetsF
  dsimp only
  rw [rd .DZ _ (by simp [Reads]), rd .DR _ (by simp [Reads]), rd .KD _ (by simp [Reads]), rd .LD _ (by simp [Reads]),
    rd .RH _ (by simp [Reads])]
  cases useTemp with
  | false => rfl
  | true => rw [rd .T _ (by simp [Reads])]

/-- C112: `csu_fhc_summer` reads the summer files of the requested band in `fdir`, and nothing else. -/
theorem C112_summer_congr {fs fs' : Files} {d d' : String} (verbose : Bool) (A : SummerArgs α) (I : Inputs α)
    (h : SameFiles fs d fs' d' .summer A.band (tempUsed A.useTemp I)) :
    csuFhcSummerF fs d verbose A I = csuFhcSummerF fs' d' verbose A I := by
  unfold csuFhcSummerF
  cases I.dz with
  | none => rfl
  | some dz => have := C112_sets_congr A.tempFactor h; unfold tempUsed at this; dsimp only; rw [this]

theorem C112_winter_congr {fs fs' : Files} {d d' : String} (verbose : Bool) (A : WinterArgs α) (I : Inputs α)
    (h : SameFiles fs d fs' d' .winter A.band (tempUsed A.useTemp I)) :
    csuFhcWinterF fs d verbose A I = csuFhcWinterF fs' d' verbose A I := by
  unfold csuFhcWinterF
  cases I.dz with
  | none => rfl
  | some dz => have := C112_sets_congr A.tempFactor h; unfold tempUsed at this; dsimp only; rw [this]

theorem C112_ml_congr {fs fs' : Files} {d d' : String} (verbose : Bool) (A : MlArgs α) (I : Inputs α)
    (h : SameFiles fs d fs' d' .ml A.band (tempUsed A.useTemp I)) :
    csuFhcMlF fs d verbose A I = csuFhcMlF fs' d' verbose A I := by
  unfold csuFhcMlF
  cases I.dz with
  | none => rfl
  | some dz => have := C112_sets_congr A.tempFactor h; unfold tempUsed at this; dsimp only; rw [this]

/-- C112: `run_winter` reads the melting-layer files of band S (no temperature) and the winter files of band C, whatever
band is requested. -/
theorem C112_run_winter_congr {fs fs' : Files} {d d' : String} (env : Env) (A : MeltArgs α) (F : Fields α)
    (h1 : SameFiles fs d fs' d' .ml "S" false) (h2 : SameFiles fs d fs' d' .winter "C" F.T.isSome) :
    runWinterF fs d env A F = runWinterF fs' d' env A F := by
  have hm : meltingLayerF fs d env A F = meltingLayerF fs' d' env A F := by
    unfold meltingLayerF
    rw [C112_ml_congr (fs' := fs') (d' := d')]
    exact h1
  have hw : ∀ w, winterRowsF fs d env w F = winterRowsF fs' d' env w F := by
    intro w; unfold winterRowsF
    rw [C112_winter_congr (fs' := fs') (d' := d')]
    have : tempUsed (winterCallArgs w : WinterArgs α).useTemp (winterInputs F) = F.T.isSome := by
      unfold tempUsed winterCallArgs winterInputs; cases F.T <;> rfl
    rw [this]; exact h2
  unfold runWinterF
  rw [hm]
  simp only [hw]

/-- does the file of variable `k` hold a table? -/
def Good (fs : Files) (d : String) (s : Season) (band : String) (k : Key) : Prop :=
  ∃ text, fs (d ++ fileName band s k) = some text ∧ (rawTable text.toList).isSome = true

theorem good_ok {fs : Files} {d : String} {s : Season} {band : String} {k : Key} (h : Good fs d s band k) (f : α) :
    ∃ rows, getBetaSetF fs (d ++ fileName band s k) f = .ok rows := by
  obtain ⟨text, h1, h2⟩ := h
  obtain ⟨⟨m, a, b⟩, h3⟩ := Option.isSome_iff_exists.mp h2
  obtain ⟨t, ht, hm, ha, hb⟩ := rawTable_ok h3
  unfold getBetaSetF
  rw [h1]
  have hr : readCsv text = .ok t := ht
  have cl : ∀ l v, rawColumn t l = .ok v → columnOf t l f = .ok (v.map (fun v => decVal v / f)) := by
    intro l v hv; unfold columnOf; rw [hv]; rfl
  show ∃ rows, (readCsv text >>= _) = _
  rw [hr]
  show ∃ rows, (columnOf t "m" f >>= _) = _
  rw [cl _ _ hm, cl _ _ ha, cl _ _ hb]
  exact ⟨_, rfl⟩

theorem missing {fs : Files} {p : String} (h : fs p = none) (f : α) :
    getBetaSetF fs p f = .error .fileNotFoundError := by
  unfold getBetaSetF; rw [h]

/-- C112: if one of the files a call reads is missing, and the others are missing or hold tables, the call raises
FileNotFoundError; this includes the files of variables that are not supplied. -/
theorem C112_missing {fs : Files} {d : String} {s : Season} {band : String} {useTemp : Bool} (tf : α)
    (h : ∀ k, Reads useTemp k → fs (d ++ fileName band s k) = none ∨ Good fs d s band k)
    (hm : ∃ k, Reads useTemp k ∧ fs (d ++ fileName band s k) = none) :
    getMbfSetsF fs d s useTemp tf band = .error .fileNotFoundError := by
  have dec : ∀ (k : Key) (f : α), Reads useTemp k →
      getBetaSetF fs (d ++ fileName band s k) f = .error .fileNotFoundError ∨
      (fs (d ++ fileName band s k) ≠ none ∧ ∃ rows, getBetaSetF fs (d ++ fileName band s k) f = .ok rows) := by
    intro k f hk
    rcases h k hk with h | h
    · exact Or.inl (missing h f)
    · obtain ⟨text, h1, _⟩ := id h
      exact Or.inr ⟨by rw [h1]; simp, good_ok h f⟩
  unfold getMbfSetsF
  dsimp only
  rcases dec .DZ 1.0 (by simp [Reads]) with e | ⟨n1, r1, e1⟩
  · rw [e]; rfl
  rcases dec .DR 1.0 (by simp [Reads]) with e | ⟨n2, r2, e2⟩
  · rw [e1, e]; rfl
  rcases dec .KD 1.0 (by simp [Reads]) with e | ⟨n3, r3, e3⟩
  · rw [e1, e2, e]; rfl
  rcases dec .LD 1.0 (by simp [Reads]) with e | ⟨n4, r4, e4⟩
  · rw [e1, e2, e3, e]; rfl
  rcases dec .RH 1.0 (by simp [Reads]) with e | ⟨n5, r5, e5⟩
  · rw [e1, e2, e3, e4, e]; rfl
  rw [e1, e2, e3, e4, e5]
  obtain ⟨k, hk, hn⟩ := hm
  cases k with
  | T =>
    have hu : useTemp = true := hk rfl
    subst hu
    rw [missing hn]; rfl
  | _ => contradiction

/-- a file system that holds the package's files except one -/
def without (dir name : String) : Files := fun p => if p = dir ++ name then none else installedAt dir p

/-- in the installed directory every file of a band is a table -/
theorem installed_good {fs : Files} {dir : String} (h : Installed fs dir) (s : Season) (k : Key) : Good fs dir s "X" k := by
  obtain ⟨t, h1, h2⟩ := find_X s k
  refine ⟨t, (h _).trans h1, ?_⟩
  have h2' : rawTable t.toList = _ := h2
  rw [h2']; rfl

/-- without the LDR file no X-band summer call works, even one without LDR data -/
example : getMbfSetsF (without "/pkg/" (fileName "X" .summer .LD)) "/pkg/" .summer true (1.0 : XR) "X" =
    .error .fileNotFoundError := by
  apply C112_missing
  · intro k _
    by_cases e : "/pkg/" ++ fileName "X" .summer k = "/pkg/" ++ fileName "X" .summer .LD
    · left; unfold without; rw [if_pos e]
    · right
      obtain ⟨t, h1, h2⟩ := installed_good (installed_at "/pkg/") .summer k
      exact ⟨t, by unfold without; rw [if_neg e]; exact h1, h2⟩
  · exact ⟨.LD, by simp [Reads], by unfold without; rw [if_pos rfl]⟩

end Csu.Csv
