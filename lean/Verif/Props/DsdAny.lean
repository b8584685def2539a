import Verif.Model.DsdAny
import Verif.Props.LiquidIceAny
import Verif.Props.Dsd
/-!
# Property C156: numbers and arrays mixed in `calc_dsd`
-/
set_option linter.unusedSimpArgs false
namespace Csu.Dsd
open Csu PyFloat Csu.Common Csu.LiquidIce Csu.Rain
variable {α : Type} [PyFloat α]

/-- band S with the 2013 method, or band C with any method -/
def NoKdp (band method : String) : Prop := (band = "S" ∧ method = "2013") ∨ band = "C"

theorem withoutKdp_iff (band method : String) : withoutKdp band method = true ↔ NoKdp band method := by
  simp [withoutKdp, NoKdp]

/-- these retrievals do not look at KDP -/
theorem dispatch_noKdp {band method : String} (h : NoKdp band method) (d z k k' : List α) :
    dispatch band method d z k = dispatch band method d z k' := by
  rcases h with ⟨rfl, rfl⟩ | rfl <;> rfl

/-- **C156**, arrays of one shape (of one or more axes): the call of `Model/Dsd.lean`. -/
theorem C156_arrays (band method : String) (d z k : NdArray α) (h1 : d.shape = z.shape) (h2 : d.shape = k.shape)
    (hd : d.shape ≠ []) :
    calcDsdAny band method (.arr d) (.arr z) (.arr k) =
      calcDsd band method (some (.arr d)) (some (.arr z)) (some (.arr k)) := by
  simp only [calcDsdAny, calcDsd, h1.symm, h2.symm, and_self, if_true, hd, if_false]
  split_ifs with hb hm
  · simp only [arrayNoKdp, h1.symm, if_true, dispatch_noKdp ((withoutKdp_iff _ _).mp hm) d.data z.data d.data k.data]
    cases dispatch band method d.data z.data k.data <;> rfl
  · have hS : band = "S" := by
      rcases hb with h | h
      · exact h
      · exact (hm ((withoutKdp_iff _ _).mpr (.inr h))).elim
    have hm' : method ≠ "2013" := fun h => hm ((withoutKdp_iff _ _).mpr (.inl ⟨hS, h⟩))
    subst hS
    simp [array2004, calcDsd, h1.symm, h2.symm, dispatch, hm']
  · have hS : band ≠ "S" := fun h => hb (.inl h)
    have hC : band ≠ "C" := fun h => hb (.inr h)
    simp [dispatch, hS, hC]

/-- **C156**, numbers only, of either kind: the call of `Model/Dsd.lean`. -/
theorem C156_numbers (band method : String) (k1 k2 k3 : Kind) (d z k : α) :
    calcDsdAny band method (.num k1 d) (.num k2 z) (.num k3 k) =
      calcDsd band method (some (.scalar .float d)) (some (.scalar .float z)) (some (.scalar .float k)) := by
  simp only [calcDsdAny, calcDsd]
  split_ifs with hb
  · have hb1 : bshape [1] [1] = some [1] := rfl
    simp only [numberDsd, wrapped, hb1]
    cases withoutKdp band method <;> cases dispatch band method [d] [z] [k] <;> rfl
  · have hS : band ≠ "S" := fun h => hb (.inl h)
    have hC : band ≠ "C" := fun h => hb (.inr h)
    simp [dispatch, hS, hC]

/-- **C156**, the 2013 S-band and the C-band retrievals give the same result for every KDP, of any kind and shape. -/
theorem C156_kdp_unused (band method : String) (h : NoKdp band method) (dz zdr kdp kdp' : Arg α) :
    calcDsdAny band method dz zdr kdp = calcDsdAny band method dz zdr kdp' := by
  have hw := (withoutKdp_iff _ _).mpr h
  simp only [calcDsdAny, hw, if_true]
  split_ifs
  · cases dz with
    | arr d => rfl
    | num k d =>
      simp only [numberDsd, hw, if_true,
        dispatch_noKdp h [d] (wrapped zdr).2 (wrapped kdp).2 (wrapped kdp').2]
  · rfl

/-- **C156**, a plain Python number for ZDR beside an array of reflectivity and any array of KDP: TypeError. -/
theorem C156_zdr_number (band method : String) (hb : band = "S" ∨ band = "C") (d k : NdArray α) (hd : d.shape ≠ [])
    (z : α) : calcDsdAny band method (.arr d) (.num .py z) (.arr k) = .error .typeError := by
  simp only [calcDsdAny, hb, if_true, hd, if_false, arrayNoKdp, array2004, ite_self]

/-- **C156**, a number for KDP beside an array of reflectivity in the 2004 S-band retrieval: TypeError for a plain Python
number, IndexError for a NumPy one, whatever the ZDR. -/
theorem C156_kdp_number (method : String) (hm : method ≠ "2013") (d : NdArray α) (hd : d.shape ≠ []) (zdr : Arg α)
    (kind : Kind) (k : α) : calcDsdAny "S" method (.arr d) zdr (.num kind k) =
      .error (match kind with | .py => .typeError | .np => .indexError) := by
  have hw : withoutKdp "S" method = false := by simp [withoutKdp, hm]
  cases kind <;> simp [calcDsdAny, hd, hw, array2004]

/-- **C156**, a number for reflectivity beside an array (of one or more axes) of ZDR, or of KDP in the 2004 retrieval,
raises: IndexError, or, in the 2004 retrieval, ValueError when the wrapped shapes of ZDR and KDP do not fit together. -/
theorem C156_dz_number (band method : String) (hb : band = "S" ∨ band = "C") (kind : Kind) (d : α) (zdr kdp : Arg α)
    (h : ∃ a : NdArray α, (zdr = .arr a ∨ (¬ NoKdp band method ∧ kdp = .arr a)) ∧ a.shape ≠ []) :
    (NoKdp band method ∨ Fit (wrappedShape zdr) (wrappedShape kdp) →
      calcDsdAny band method (.num kind d) zdr kdp = .error .indexError) ∧
    (¬ (NoKdp band method ∨ Fit (wrappedShape zdr) (wrappedShape kdp)) →
      calcDsdAny band method (.num kind d) zdr kdp = .error .valueError) := by
  have hw : ∀ a : Arg α, (wrapped a).1 = wrappedShape a := fun a => by cases a <;> rfl
  simp only [calcDsdAny, hb, if_true, numberDsd, hw]
  by_cases hn : NoKdp band method
  · have hk := (withoutKdp_iff _ _).mpr hn
    refine ⟨fun _ => ?_, fun h => (h (.inl hn)).elim⟩
    obtain ⟨a, e | ⟨hn', -⟩, hs⟩ := h
    · have hl : (wrappedShape zdr).length ≠ 1 := by
        have := List.length_pos_of_ne_nil hs
        rw [e, wrappedShape, List.length_cons]
        omega
      simp only [hk, if_true, bind, Except.bind, hl, ne_eq, not_false_eq_true]
      rfl
    · exact (hn' hn).elim
  · have hk : withoutKdp band method = false := by
      rw [Bool.eq_false_iff]; exact fun h => hn ((withoutKdp_iff _ _).mp h)
    simp only [hk, Bool.false_eq_true, if_false, bind, Except.bind, hn, false_or]
    constructor <;> intro hfit
    · rw [← bshape_isSome, Option.isSome_iff_exists] at hfit
      obtain ⟨sh, e⟩ := hfit
      have hl : sh.length ≠ 1 := by
        have hb := bshape_length e
        obtain ⟨a, rfl | ⟨-, rfl⟩, hs⟩ := h
        · have := List.length_pos_of_ne_nil hs
          simp only [wrappedShape, List.length_cons] at hb
          omega
        · have := List.length_pos_of_ne_nil hs
          simp only [wrappedShape, List.length_cons] at hb
          omega
      rw [e]
      dsimp only
      simp only [hl, ne_eq, not_false_eq_true, if_true]
      rfl
    · rw [← bshape_isSome, Option.not_isSome_iff_eq_none] at hfit
      rw [hfit]

/-- non-vacuity: shapes (1, 2) and (1, 3) do not fit, (1, 2) and (1,) do -/
example : ¬ Fit [1, 2] [1, 3] ∧ Fit [1, 2] [1] :=
  ⟨fun h => absurd (h 0 2 3 rfl rfl) (by decide), (bshape_isSome _ _).mp (by decide)⟩

/-- an argument in array form: a number fills the shape -/
def filled (d : NdArray α) : Arg α → Arg α
  | .num _ x => .arr ⟨.float, d.shape, List.replicate d.data.length x⟩
  | .arr a => .arr a

/-- C156, full statement: a number is that number at every gate. -/
def C156Full (α : Type) [PyFloat α] : Prop :=
  ∀ (band method : String) (d : NdArray α) (zdr kdp : Arg α), band = "S" ∨ band = "C" → d.WF → d.shape ≠ [] →
    calcDsdAny band method (.arr d) zdr kdp = calcDsdAny band method (.arr d) (filled d zdr) (filled d kdp)

/-- **C156 is false of the code**: ZDR given as a number beside two gates of reflectivity raises. -/
theorem C156_full_false : ¬ C156Full α := by
  intro hall
  have h := hall "S" "2013" ⟨.float, [2], [30, 40]⟩ (.num .py 1) (.arr ⟨.float, [2], [1, 1]⟩) (.inl rfl) rfl (by simp)
  rw [C156_zdr_number _ _ (.inl rfl) _ _ (by simp)] at h
  simp only [filled] at h
  rw [C156_arrays "S" "2013" ⟨.float, [2], [30, 40]⟩ ⟨.float, [2], List.replicate [(30 : α), 40].length 1⟩
    ⟨.float, [2], [1, 1]⟩ rfl rfl (by simp)] at h
  simp [calcDsd, dispatch] at h

/-- **C156**, what is true of it: a number for KDP is that number at every gate where KDP is not used, ZDR being an
array. -/
theorem C156_kdp_filled_partial (band method : String) (h : NoKdp band method) (d z : NdArray α) (kdp : Arg α) :
    calcDsdAny band method (.arr d) (.arr z) kdp = calcDsdAny band method (.arr d) (filled d (.arr z)) (filled d kdp) :=
  C156_kdp_unused band method h _ _ _ _

/-- non-vacuity: a 2013 call with KDP given as a number returns the three arrays -/
example (d z k : α) : ∃ a b c : NdArray α, calcDsdAny "S" "2013" (.arr ⟨.float, [1], [d]⟩) (.arr ⟨.float, [1], [z]⟩)
    (.num .py k) = .ok (some (.arr a b c)) := by
  rw [C156_kdp_unused "S" "2013" (.inl ⟨rfl, rfl⟩) _ _ _ (.arr ⟨.float, [1], [k]⟩),
    C156_arrays "S" "2013" ⟨.float, [1], [d]⟩ ⟨.float, [1], [z]⟩ ⟨.float, [1], [k]⟩ rfl rfl (by simp)]
  exact ⟨_, _, _, rfl⟩

end Csu.Dsd
