import Verif.Props.Csv4
import Verif.Props.MeltPpi
/-!
# C137: parameter files without one of the columns
-/
namespace Csu.CsvSpec

/-- no column is called `label`, or the first one is (the first column holds the names of the species) -/
def Sheet.Lacks (F : Sheet) (label : String) : Prop := F.header.head? = some label ∨ label ∉ F.header

/-- every cell of the columns `m`, `a`, `b` that exist is a number -/
def Sheet.Numeric (F : Sheet) : Prop :=
  ∀ label ∈ ["m", "a", "b"], ∀ i, F.Column label i → ∀ r ∈ F.rows, ∃ q, Denotes (r.getD i "") q

end Csu.CsvSpec

namespace Csu.Csv
open Csu PyFloat Tables Fhc CsvSpec FhcSpec
variable {α : Type} [PyFloat α]

theorem lacks_or {F : Sheet} (label : String) : F.Lacks label ∨ ∃ i, F.Column label i := by
  by_cases h : label ∈ F.header
  · have hd : ∃ i : Nat, F.header[i]? = some label := by
      obtain ⟨i, hi, e⟩ := List.mem_iff_getElem.mp h
      exact ⟨i, by rw [List.getElem?_eq_getElem hi, e]⟩
    classical
    have hm := Nat.find_spec hd
    by_cases h0 : Nat.find hd = 0
    · left; left
      rw [h0] at hm
      rw [List.head?_eq_getElem?]; exact hm
    · right
      exact ⟨Nat.find hd, Nat.pos_of_ne_zero h0, hm, fun j hj => Nat.find_min hd hj⟩
  · exact Or.inl (Or.inr h)

theorem rawColumn_lacks {F : Sheet} {label : String} (h : F.Lacks label) (rows : List (List (List Char))) :
    rawColumn ⟨F.header.map String.toList, rows⟩ label = .error .keyError := by
  unfold rawColumn
  dsimp only
  rcases h with h | h
  · have : (F.header.map String.toList).idxOf? label.toList = some 0 := by
      cases hh : F.header with
      | nil => rw [hh] at h; cases h
      | cons c cs =>
        rw [hh] at h
        simp only [List.head?_cons, Option.some.injEq] at h
        subst h
        simp [List.idxOf?, List.findIdx?_cons]
    rw [this]; rfl
  · have : (F.header.map String.toList).idxOf? label.toList = none := by
      rw [List.idxOf?_eq_none_iff]
      intro hm
      obtain ⟨s, hs, e⟩ := List.mem_map.mp hm
      exact h (String.toList_injective e ▸ hs)
    rw [this]

theorem rawColumn_column {F : Sheet} {label : String} {i : Nat} (h : F.Column label i)
    (hn : ∀ r ∈ F.rows, ∃ q, Denotes (r.getD i "") q) :
    ∃ vs, rawColumn ⟨F.header.map String.toList, F.rows.map (fun r => r.map String.toList)⟩ label = .ok vs := by
  have : ∃ vs : List ℚ, List.Forall₂ (fun r v => Denotes (r.getD i "") v) F.rows vs := by
    clear h
    generalize F.rows = R at hn
    induction R with
    | nil => exact ⟨[], .nil⟩
    | cons r R ih =>
      obtain ⟨q, hq⟩ := hn r (List.mem_cons_self ..)
      obtain ⟨vs, hv⟩ := ih (fun r hr => hn r (List.mem_cons_of_mem _ hr))
      exact ⟨q :: vs, .cons hq hv⟩
  obtain ⟨vs, hv⟩ := this
  exact ⟨_, column_read h vs hv⟩

theorem rawColumn_error {t : Table} {label : String} {e : PyErr} (h : rawColumn t label = .error e) :
    e = .keyError ∨ e = .typeError := by
  unfold rawColumn at h
  split at h
  · cases h; exact Or.inl rfl
  · cases h; exact Or.inl rfl
  · split at h
    · cases h; exact Or.inr rfl
    · cases h

theorem columnOf_error {t : Table} {label : String} {e : PyErr} (f : α) (h : rawColumn t label = .error e) :
    columnOf t label f = .error e := by unfold columnOf; rw [h]; rfl

theorem columnOf_ok {t : Table} {label : String} {v} (f : α) (h : rawColumn t label = .ok v) :
    columnOf t label f = .ok (v.map (fun v => decVal v / f)) := by unfold columnOf; rw [h]; rfl

/-- **C137**, one file: a well-formed file without a column `m`, `a` or `b` — or in which that name stands over the first column —
raises KeyError if the cells of the other columns are numbers, and KeyError or TypeError (text in an earlier column) in any case. -/
theorem C137_file {fs : Files} {p : String} {F : Sheet} {eol : List Char} (hF : F.Valid) (he : LineEnd eol)
    (hf : fs p = some (F.text eol)) (hl : ∃ label ∈ ["m", "a", "b"], F.Lacks label) (factor : α) :
    (getBetaSetF fs p factor = .error .keyError ∨ getBetaSetF fs p factor = .error .typeError) ∧
    (F.Numeric → getBetaSetF fs p factor = .error .keyError) := by
  have key : ∀ label ∈ ["m", "a", "b"],
      let t : Table := ⟨F.header.map String.toList, F.rows.map (fun r => r.map String.toList)⟩
      (F.Lacks label ∧ columnOf t label factor = .error .keyError) ∨
      (¬ F.Lacks label ∧ ((∃ v, columnOf t label factor = .ok v) ∨
        (columnOf t label factor = .error .typeError ∧ ¬ F.Numeric))) := by
    intro label hlab
    dsimp only
    by_cases hL : F.Lacks label
    · exact Or.inl ⟨hL, columnOf_error _ (rawColumn_lacks hL _)⟩
    · right
      refine ⟨hL, ?_⟩
      obtain ⟨i, hi⟩ := (lacks_or (F := F) label).resolve_left hL
      by_cases hN : F.Numeric
      · obtain ⟨v, hv⟩ := rawColumn_column hi (hN label hlab i hi)
        exact Or.inl ⟨_, columnOf_ok _ hv⟩
      · cases hr : rawColumn ⟨F.header.map String.toList, F.rows.map (fun r => r.map String.toList)⟩ label with
        | ok v => exact Or.inl ⟨_, columnOf_ok _ hr⟩
        | error e =>
          right
          refine ⟨?_, hN⟩
          have : e = .typeError := by
            unfold rawColumn at hr
            dsimp only at hr
            rw [column_index hi] at hr
            obtain ⟨n, rfl⟩ : ∃ n, i = n + 1 := ⟨i - 1, by have := hi.1; omega⟩
            split at hr
            · next hx => cases hx
            · next hx => simp at hx
            · split at hr
              · cases hr; rfl
              · cases hr
          rw [← this]
          exact columnOf_error _ hr
  have e : getBetaSetF fs p factor = (do
      let t : Table := ⟨F.header.map String.toList, F.rows.map (fun r => r.map String.toList)⟩
      let m ← columnOf t "m" factor
      let a ← columnOf t "a" factor
      let b ← columnOf t "b" factor
      .ok (toRows m a b)) := by
    unfold getBetaSetF
    rw [hf]
    show (readCsv (F.text eol) >>= _) = _
    rw [parse_sheet hF he]; rfl
  rw [e]
  dsimp only at key ⊢
  have km := key "m" (by simp)
  have ka := key "a" (by simp)
  have kb := key "b" (by simp)
  simp only [List.mem_cons, List.not_mem_nil, or_false, exists_eq_or_imp, exists_eq_left] at hl
  rcases km with ⟨_, km⟩ | ⟨lm, ⟨v, km⟩ | ⟨km, nn⟩⟩
  · rw [km]; exact ⟨Or.inl rfl, fun _ => rfl⟩
  · rw [km]
    rcases ka with ⟨_, ka⟩ | ⟨la, ⟨w, ka⟩ | ⟨ka, nn⟩⟩
    · rw [ka]; exact ⟨Or.inl rfl, fun _ => rfl⟩
    · rw [ka]
      rcases kb with ⟨_, kb⟩ | ⟨lb, _⟩
      · rw [kb]; exact ⟨Or.inl rfl, fun _ => rfl⟩
      · rcases hl with h | h | h
        · exact absurd h lm
        · exact absurd h la
        · exact absurd h lb
    · rw [ka]; exact ⟨Or.inr rfl, fun h => absurd h nn⟩
  · rw [km]; exact ⟨Or.inr rfl, fun h => absurd h nn⟩

/-- reading the sets fails as soon as one of the files read fails, with the error of one of these files -/
theorem getMbfSetsF_error {fs : Files} {d : String} {s : Season} {band : String} {useTemp : Bool} (tf : α)
    (h : ∃ k, Reads useTemp k ∧ ∀ f : α, ∃ e, getBetaSetF fs (d ++ fileName band s k) f = .error e) :
    ∃ e, getMbfSetsF fs d s useTemp tf band = .error e := by
  unfold getMbfSetsF
  dsimp only
  obtain ⟨k, hk, hf⟩ := h
  cases h1 : getBetaSetF fs (d ++ fileName band s .DZ) (1.0 : α) with
  | error e => exact ⟨e, rfl⟩
  | ok _ =>
  cases h2 : getBetaSetF fs (d ++ fileName band s .DR) (1.0 : α) with
  | error e => exact ⟨e, rfl⟩
  | ok _ =>
  cases h3 : getBetaSetF fs (d ++ fileName band s .KD) (1.0 : α) with
  | error e => exact ⟨e, rfl⟩
  | ok _ =>
  cases h4 : getBetaSetF fs (d ++ fileName band s .LD) (1.0 : α) with
  | error e => exact ⟨e, rfl⟩
  | ok _ =>
  cases h5 : getBetaSetF fs (d ++ fileName band s .RH) (1.0 : α) with
  | error e => exact ⟨e, rfl⟩
  | ok _ =>
  cases k with
  | DZ => obtain ⟨e, he⟩ := hf 1.0; rw [h1] at he; cases he
  | DR => obtain ⟨e, he⟩ := hf 1.0; rw [h2] at he; cases he
  | KD => obtain ⟨e, he⟩ := hf 1.0; rw [h3] at he; cases he
  | LD => obtain ⟨e, he⟩ := hf 1.0; rw [h4] at he; cases he
  | RH => obtain ⟨e, he⟩ := hf 1.0; rw [h5] at he; cases he
  | T =>
    rw [hk rfl]
    obtain ⟨e, he⟩ := hf tf
    exact ⟨e, by rw [if_pos rfl, he]; rfl⟩

/-- One of the files the call reads is well formed but lacks a column. -/
def FileLacks (fs : Files) (d : String) (s : Season) (band : String) (useTemp : Bool) : Prop :=
  ∃ k, Reads useTemp k ∧ ∃ (F : Sheet) (eol : List Char), F.Valid ∧ LineEnd eol ∧
    fs (d ++ fileName band s k) = some (F.text eol) ∧ ∃ label ∈ ["m", "a", "b"], F.Lacks label

theorem FileLacks.sets {fs : Files} {d : String} {s : Season} {band : String} {useTemp : Bool}
    (h : FileLacks fs d s band useTemp) (tf : α) : ∃ e, getMbfSetsF fs d s useTemp tf band = .error e := by
  obtain ⟨k, hk, F, eol, hF, he, hf, hl⟩ := h
  refine getMbfSetsF_error tf ⟨k, hk, fun f => ?_⟩
  rcases (C137_file hF he hf hl f).1 with h | h
  · exact ⟨_, h⟩
  · exact ⟨_, h⟩

/-- **C137**, the classifiers: if one of the parameter files read lacks a column, a call with reflectivity raises; nothing is classified with
a wrong column. -/
theorem C137_summer {fs : Files} {d : String} (verbose : Bool) (A : SummerArgs α) (I : Inputs α) (hz : I.dz.isSome = true)
    (h : FileLacks fs d .summer A.band (tempUsed A.useTemp I)) : ∃ e, csuFhcSummerF fs d verbose A I = .error e := by
  obtain ⟨dz, hz⟩ := Option.isSome_iff_exists.mp hz
  obtain ⟨e, he⟩ := h.sets A.tempFactor
  refine ⟨e, ?_⟩
  unfold csuFhcSummerF
  rw [hz]
  unfold tempUsed at he; dsimp only; rw [he]; rfl

theorem C137_winter {fs : Files} {d : String} (verbose : Bool) (A : WinterArgs α) (I : Inputs α) (hz : I.dz.isSome = true)
    (h : FileLacks fs d .winter A.band (tempUsed A.useTemp I)) : ∃ e, csuFhcWinterF fs d verbose A I = .error e := by
  obtain ⟨dz, hz⟩ := Option.isSome_iff_exists.mp hz
  obtain ⟨e, he⟩ := h.sets A.tempFactor
  refine ⟨e, ?_⟩
  unfold csuFhcWinterF
  rw [hz]
  unfold tempUsed at he; dsimp only; rw [he]; rfl

theorem C137_ml {fs : Files} {d : String} (verbose : Bool) (A : MlArgs α) (I : Inputs α) (hz : I.dz.isSome = true)
    (h : FileLacks fs d .ml A.band (tempUsed A.useTemp I)) : ∃ e, csuFhcMlF fs d verbose A I = .error e := by
  obtain ⟨dz, hz⟩ := Option.isSome_iff_exists.mp hz
  obtain ⟨e, he⟩ := h.sets A.tempFactor
  refine ⟨e, ?_⟩
  unfold csuFhcMlF
  rw [hz]
  unfold tempUsed at he; dsimp only; rw [he]; rfl

/-! ## The hypotheses can be met -/

/-- the file begins with the column `m` instead of the names of the species -/
def noIndexSheet : Sheet := ⟨["m", "a", "b"], [["1", "2", "3"]]⟩

theorem noIndexSheet_valid : noIndexSheet.Valid where
  wide := by decide
  rect := by decide
  plainHeader := by unfold Plain noIndexSheet; decide
  plain := by unfold Plain noIndexSheet; decide

example : noIndexSheet.Lacks "m" := Or.inl rfl
example : FileLacks (fun _ => some (noIndexSheet.text ['\n'])) "d/" .summer "S" false :=
  ⟨.DZ, (fun h => by cases h), noIndexSheet, ['\n'], noIndexSheet_valid, Or.inl rfl, rfl, "m", by simp, Or.inl rfl⟩
/-- the same numbers with an index column are read -/
example : ¬ (⟨["", "m", "a", "b"], [["x", "1", "2", "3"]]⟩ : Sheet).Lacks "m" := by
  unfold Sheet.Lacks; decide

end Csu.Csv
