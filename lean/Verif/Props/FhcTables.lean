import Verif.Lemmas.FhcApi
import Verif.Lemmas.Argmax
import Mathlib.Tactic.Ring
import Mathlib.Analysis.SpecialFunctions.Pow.Real
/-!
# C18, C19: membership functions and their parameter tables
-/
namespace Csu.Fhc
open Csu PyFloat Tables XR FhcSpec

/-! ## C18 -/

/-- C18: with finite parameters (width not zero, positive slope) the compiled membership function returns, at every
finite `x`, a finite value in `(0,1]`; it is 1 exactly at the centre, 1/2 exactly one width away, symmetric about the
centre, and strictly decreasing with the distance from it. -/
theorem C18_bell (m a b : ℝ) (ha : a ≠ 0) (hb : 0 < b) :
    ∃ μ : ℝ → ℝ, (∀ sz (xs : List ℝ), xs.length = sz →
        hidBetaF sz (xs.map fin) ⟨fin m, fin a, fin b⟩ = .ok ((xs.map μ).map fin)) ∧
      (∀ x, 0 < μ x ∧ μ x ≤ 1) ∧
      (∀ x, μ x = 1 ↔ x = m) ∧
      (∀ x, μ x = 1 / 2 ↔ |x - m| = |a|) ∧
      (∀ d, μ (m + d) = μ (m - d)) ∧
      (∀ x y, |x - m| < |y - m| → μ y < μ x) := by
  let B : Bell := ⟨m, a, b⟩
  have hmono : ∀ x y, |x - m| < |y - m| → B.mu y < B.mu x := by
    intro x y hxy
    have h1 : ((x - m) / a) ^ 2 < ((y - m) / a) ^ 2 := by
      rw [sq_lt_sq, abs_div, abs_div]
      exact div_lt_div_of_pos_right hxy (abs_pos.mpr ha)
    have h2 := Real.rpow_lt_rpow (sq_nonneg _) h1 hb
    have h3 : (0 : ℝ) ≤ (((x - m) / a) ^ 2) ^ b := Real.rpow_nonneg (sq_nonneg _) _
    show 1 / (1 + (((y - m) / a) ^ 2) ^ b) < 1 / (1 + (((x - m) / a) ^ 2) ^ b)
    apply one_div_lt_one_div_of_lt <;> linarith
  have habs : ∀ x y, |x - m| = |y - m| → B.mu x = B.mu y := by
    intro x y hxy
    have : ((x - m) / a) ^ 2 = ((y - m) / a) ^ 2 := by
      rw [sq_eq_sq_iff_abs_eq_abs, abs_div, abs_div, hxy]
    show 1 / (1 + (((x - m) / a) ^ 2) ^ b) = 1 / (1 + (((y - m) / a) ^ 2) ^ b)
    rw [this]
  have hhalf : B.mu (m + a) = 1 / 2 := by
    show 1 / (1 + (((m + a - m) / a) ^ 2) ^ b) = 1 / 2
    rw [add_sub_cancel_left, div_self ha]; norm_num
  have hinj : ∀ x y, B.mu x = B.mu y → |x - m| = |y - m| := by
    intro x y h
    rcases lt_trichotomy |x - m| |y - m| with h' | h' | h'
    · have := hmono x y h'; linarith
    · exact h'
    · have := hmono y x h'; linarith
  refine ⟨B.mu, ?_, fun x => ⟨mu_pos B x, mu_le_one B x⟩, ?_, ?_, ?_, hmono⟩
  · intro sz xs hsz
    unfold hidBetaF
    by_cases h0 : sz = 0
    · have : xs = [] := List.eq_nil_of_length_eq_zero (by omega)
      simp [h0, this]
    · rw [if_neg h0, if_neg (by simp [ha]), if_neg (by simp [hsz])]
      rw [List.take_of_length_le (by simp [hsz]), List.map_map, List.map_map]
      congr 1
      apply List.map_congr_left
      intro x _
      exact beta_fin B ha hb x
  · intro x
    constructor
    · intro h
      by_contra hx
      have := mu_lt_one B ha (x := x) hx
      linarith
    · rintro rfl; exact mu_centre B hb
  · intro x
    constructor
    · intro h
      have := hinj x (m + a) (by rw [h, hhalf])
      rwa [add_sub_cancel_left] at this
    · intro h
      rw [habs x (m + a) (by rw [add_sub_cancel_left, h]), hhalf]
  · intro d
    apply habs
    rw [show m + d - m = d by ring, show m - d - m = -d by ring, abs_neg]

/-- the hypotheses of C18 are met by the shipped rain/reflectivity row -/
example : ∃ a b : ℝ, a ≠ 0 ∧ 0 < b ∧ bell "S" .summer .DZ 1 = ⟨41.5, a, b⟩ := by
  refine ⟨15.5, 10, by norm_num, by norm_num, ?_⟩
  simp [bell, csv, csvS, tabS_summer_DZ, bellOf]; norm_num

/-- C18: outside its domain the compiled membership function is not a bell: a zero width raises. -/
theorem C18_zero_width (m b : XR) (x : XR) (xs : List XR) :
    hidBetaF (xs.length + 1) (x :: xs) ⟨m, fin 0, b⟩ = .error .zeroDivisionError := by
  simp [hidBetaF]

/-! ## C19 -/

/-- A usable row: three numbers, positive width and slope. -/
def GoodRow (r : RawRow) : Prop := ∃ m a b : ℤ, r = ⟨some m, some a, some b⟩ ∧ 0 < a ∧ 0 < b

/-- decision procedure for `GoodRow` -/
def goodRowB (r : RawRow) : Bool := match r with
  | ⟨some _, some a, some b⟩ => decide (0 < a) && decide (0 < b)
  | _ => false

theorem goodRowB_iff (r : RawRow) : goodRowB r = true → GoodRow r := by
  rcases r with ⟨m, a, b⟩
  rcases m with _ | m <;> rcases a with _ | a <;> rcases b with _ | b <;> simp [goodRowB]
  intro h1 h2
  exact ⟨m, a, b, rfl, h1, h2⟩

/-- the shipped bands -/
def bands : List String := ["S", "C", "X"]
/-- all variables -/
def keys : List Key := [.DZ, .DR, .KD, .RH, .LD, .T]
theorem mem_keys (k : Key) : k ∈ keys := by cases k <;> simp [keys]

/-- check of one table -/
def tableOk (n : Nat) (band : String) (s : Season) (k : Key) : Bool :=
  match csv band s k with
  | none => false
  | some rows => rows.length == n && rows.all goodRowB

theorem tableOk_iff {n band s k} (h : tableOk n band s k = true) :
    ∃ rows, csv band s k = some rows ∧ rows.length = n ∧ ∀ r ∈ rows, GoodRow r := by
  unfold tableOk at h
  split at h
  · cases h
  · rename_i rows hrow
    simp only [Bool.and_eq_true, beq_iff_eq, List.all_eq_true] at h
    exact ⟨rows, hrow, h.1, fun r hr => goodRowB_iff r (h.2 r hr)⟩

/-- C19: every summer table has ten usable rows. -/
theorem C19_summer (band : String) (hb : band ∈ bands) (k : Key) :
    ∃ rows, csv band .summer k = some rows ∧ rows.length = 10 ∧ ∀ r ∈ rows, GoodRow r := by
  apply tableOk_iff
  have : bands.all (fun b => keys.all (fun k => tableOk 10 b .summer k)) = true := by decide
  rw [List.all_eq_true] at this
  exact List.all_eq_true.mp (this band hb) k (mem_keys k)

/-- C19: every melting-layer table has two usable rows. -/
theorem C19_ml (band : String) (hb : band ∈ bands) (k : Key) :
    ∃ rows, csv band .ml k = some rows ∧ rows.length = 2 ∧ ∀ r ∈ rows, GoodRow r := by
  apply tableOk_iff
  have : bands.all (fun b => keys.all (fun k => tableOk 2 b .ml k)) = true := by decide
  rw [List.all_eq_true] at this
  exact List.all_eq_true.mp (this band hb) k (mem_keys k)

/-- C19: every winter table has six rows; they are usable except in the correlation and depolarization tables. -/
theorem C19_winter (band : String) (hb : band ∈ bands) (k : Key) (hk : k ≠ .RH ∧ k ≠ .LD) :
    ∃ rows, csv band .winter k = some rows ∧ rows.length = 6 ∧ ∀ r ∈ rows, GoodRow r := by
  apply tableOk_iff
  have : bands.all (fun b => keys.all (fun k => (k == .RH || k == .LD) || tableOk 6 b .winter k)) = true := by decide
  rw [List.all_eq_true] at this
  have := List.all_eq_true.mp (this band hb) k (mem_keys k)
  simpa [hk.1, hk.2] using this

/-- C19: the rows of the winter correlation and depolarization tables have NaN centre and width. -/
theorem C19_winter_nan (band : String) (hb : band ∈ bands) (k : Key) (hk : k = .RH ∨ k = .LD) :
    ∃ rows, csv band .winter k = some rows ∧ rows.length = 6 ∧ ∀ r ∈ rows, r.m = none ∧ r.a = none := by
  have : bands.all (fun b => [Key.RH, Key.LD].all (fun k => match csv b .winter k with
      | none => false
      | some rows => rows.length == 6 && rows.all (fun r => r.m.isNone && r.a.isNone))) = true := by decide
  rw [List.all_eq_true] at this
  have h := List.all_eq_true.mp (this band hb) k (by rcases hk with rfl | rfl <;> simp)
  split at h
  · cases h
  · rename_i rows hrow
    simp only [Bool.and_eq_true, beq_iff_eq, List.all_eq_true, Option.isNone_iff_eq_none] at h
    exact ⟨rows, hrow, h.1, h.2⟩

/-- C19: these three bands are all there are. -/
theorem C19_bands (band : String) (s : Season) (k : Key) : (csv band s k).isSome ↔ band ∈ bands := by
  unfold csv bands
  split_ifs <;> simp_all

example : "X" ∈ bands ∧ (csv "X" .summer .T).isSome := by decide

end Csu.Fhc
