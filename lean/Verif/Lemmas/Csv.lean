import Verif.Lemmas.CsvText
/-!
# Lemmas about the CSV files
-/
namespace Csu.Csv
open Csu PyFloat Tables Fhc
variable {α : Type} [PyFloat α]

theorem decVal_scaled (x : Option Int) : (decVal (scaled x) : α) = rawVal x := by
  cases x <;> rfl

theorem toRows_map {β : Type} (l : List β) (f g h : β → α) :
    toRows (l.map f) (l.map g) (l.map h) = l.map (fun r => ⟨f r, g r, h r⟩) := by
  induction l with
  | nil => rfl
  | cons x xs ih => simp only [toRows, List.map_cons, List.zip_cons_cons, List.zipWith_cons_cons] at *; rw [ih]

theorem rawTable_ok {text : List Char} {m a b : List (Option Rat)} (h : rawTable text = some (m, a, b)) :
    ∃ t, parseCsv text = .ok t ∧ rawColumn t "m" = .ok m ∧ rawColumn t "a" = .ok a ∧ rawColumn t "b" = .ok b := by
  unfold rawTable at h
  split at h
  · simp at h
  · rename_i t ht
    split at h
    · rename_i m' a' b' hm ha hb
      simp only [Option.some.injEq, Prod.mk.injEq] at h
      obtain ⟨rfl, rfl, rfl⟩ := h
      exact ⟨t, ht, hm, ha, hb⟩
    · simp at h

/-- Reading a file that holds a table. -/
theorem getBetaSetF_parses {fs : Files} {p text : String} {rows : List RawRow} (factor : α) (hf : fs p = some text)
    (h : Parses text rows) : getBetaSetF fs p factor = .ok (getBetaSet rows factor) := by
  obtain ⟨t, ht, hm, ha, hb⟩ := rawTable_ok h
  unfold getBetaSetF
  rw [hf]
  show (readCsv text >>= _) = _
  have hr : readCsv text = .ok t := ht
  rw [hr]
  show (columnOf t "m" factor >>= _) = _
  have cm : columnOf t "m" factor = .ok (rows.map (fun r => rawVal r.m / factor)) := by
    unfold columnOf; rw [hm]; show Except.ok _ = _; simp [decVal_scaled, Function.comp_def]
  have ca : columnOf t "a" factor = .ok (rows.map (fun r => rawVal r.a / factor)) := by
    unfold columnOf; rw [ha]; show Except.ok _ = _; simp [decVal_scaled, Function.comp_def]
  have cb : columnOf t "b" factor = .ok (rows.map (fun r => rawVal r.b / factor)) := by
    unfold columnOf; rw [hb]; show Except.ok _ = _; simp [decVal_scaled, Function.comp_def]
  rw [cm, ca, cb]
  show Except.ok (toRows _ _ _) = _
  rw [toRows_map]; rfl

/-! ## File names -/

/-- the part of the file name after the band, as characters -/
def tailChars (s : Season) (k : Key) : List Char := ("-band_" ++ varName k ++ seasonSuffix s).toList

theorem fileName_toList (band : String) (s : Season) (k : Key) :
    (fileName band s k).toList = band.toList ++ tailChars s k := by
  unfold fileName tailChars; rw [String.toList_append]

/-- cutting the end off each shipped name leaves one of the three bands -/
def bandsOk (s : Season) (k : Key) : Bool :=
  shippedFiles.all (fun f => !(tailChars s k).isSuffixOf f.1.toList ||
    [['S'], ['C'], ['X']].contains (f.1.toList.take (f.1.toList.length - (tailChars s k).length)))

theorem bands_ok : ∀ s k, bandsOk s k = true := by
  intro s k; cases s <;> cases k <;> krfl

theorem lookup_mem {β : Type} {l : List (String × β)} {n : String} {v : β} (h : l.lookup n = some v) : (n, v) ∈ l := by
  induction l with
  | nil => simp at h
  | cons x xs ih =>
    rw [List.lookup_cons] at h
    split at h
    · rename_i he
      have : n = x.1 := by simpa using he
      subst this; simp only [Option.some.injEq] at h; subst h; simp
    · exact List.mem_cons_of_mem _ (ih h)

theorem band_of_lookup {band : String} {s : Season} {k : Key} {t : String}
    (h : shippedFiles.lookup (fileName band s k) = some t) : band = "S" ∨ band = "C" ∨ band = "X" := by
  have hm := lookup_mem h
  have hb := bands_ok s k
  unfold bandsOk at hb
  rw [List.all_eq_true] at hb
  have := hb _ hm
  simp only [fileName_toList] at this
  have hs : (tailChars s k).isSuffixOf (band.toList ++ tailChars s k) = true := by
    rw [List.isSuffixOf_iff_suffix]; exact List.suffix_append _ _
  rw [hs] at this
  have ht : (band.toList ++ tailChars s k).take ((band.toList ++ tailChars s k).length - (tailChars s k).length) =
      band.toList := by
    rw [List.length_append, Nat.add_sub_cancel, List.take_left']
    rfl
  rw [ht] at this
  simp only [Bool.not_true, Bool.false_or, List.contains_eq_mem, List.mem_cons, List.not_mem_nil, or_false,
    decide_eq_true_eq] at this
  rcases this with h | h | h
  · exact Or.inl (String.toList_injective h)
  · exact Or.inr (Or.inl (String.toList_injective h))
  · exact Or.inr (Or.inr (String.toList_injective h))

theorem lookup_none {band : String} (h1 : band ≠ "S") (h2 : band ≠ "C") (h3 : band ≠ "X") (s : Season) (k : Key) :
    shippedFiles.lookup (fileName band s k) = none := by
  cases h : shippedFiles.lookup (fileName band s k) with
  | none => rfl
  | some t => rcases band_of_lookup h with h | h | h <;> contradiction

/-- A used file of a band with tables. -/
theorem shipped_file {band : String} {s : Season} {rows : Key → List RawRow} (hr : ∀ k, csv band s k = some (rows k))
    (k : Key) : ∃ t, shippedFiles.lookup (fileName band s k) = some t ∧ Parses t (rows k) := by
  have h := hr k
  unfold csv at h
  split at h
  · rename_i hb; subst hb
    obtain ⟨t, h1, h2⟩ := find_S s k
    simp only [Option.some.injEq] at h
    exact ⟨t, h1, h ▸ h2⟩
  · split at h
    · rename_i hb; subst hb
      obtain ⟨t, h1, h2⟩ := find_C s k
      simp only [Option.some.injEq] at h
      exact ⟨t, h1, h ▸ h2⟩
    · split at h
      · rename_i hb; subst hb
        obtain ⟨t, h1, h2⟩ := find_X s k
        simp only [Option.some.injEq] at h
        exact ⟨t, h1, h ▸ h2⟩
      · simp at h

end Csu.Csv
