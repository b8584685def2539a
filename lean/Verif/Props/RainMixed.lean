import Verif.Model.RainMixed
import Verif.Props.RainDefaults
/-!
# Property C153: numbers mixed with arrays in the rain functions

A user who passes one ZDR value (or one hydrometeor class) beside arrays of reflectivity and KDP expects the answer of
the call with that value in every gate.  NumPy scalars give it.  A plain Python number does not at S band: `~` on a Python
bool is never false, so methods 1 and 3 are overwritten.
-/
set_option linter.unusedSimpArgs false
namespace Csu.Rain
open Csu PyFloat Csu.Common Csu.LiquidIce Csu.RainSpec
variable {α : Type} [PyFloat α]

/-- an array with the shape of `d` and `z` in every gate -/
def filled {β γ : Type} (dt : DType) (d : NdArray β) (z : γ) : NdArray γ := ⟨dt, d.shape, d.data.map (fun _ => z)⟩

/-- the outcome of a call whose arguments are all present, as an outcome of the function (which returns `None` when an
argument is missing) -/
def returned {α : Type} : Except PyErr (Ret α) → Except PyErr (Option (Ret α))
  | .ok r => .ok (some r)
  | .error e => .error e

/-! ## The array bodies -/

theorem zipWith_map_const {β γ δ ι : Type} (f : β → γ → δ) (gs : List ι) (g : ι → β) (h : ι → γ) :
    List.zipWith f (gs.map g) (gs.map h) = gs.map (fun i => f (g i) (h i)) := by
  induction gs with
  | nil => rfl
  | cons a t ih => simp [ih]

/-- with three arrays the mixed model is the array model -/
theorem blendedMix_arr (P : Params α) (band : String) (dt : DType) (dz zdr kdp : List α) :
    blendedMix P band dt dz (.arr zdr) (.arr kdp) = blendedArr P band dt dz zdr kdp := by
  by_cases hb : band = "S"
  · simp only [blendedMix, blendedArr, hb, if_true]
    cases rainLine P <;> rfl
  · simp only [blendedMix, blendedArr, hb, if_false]
    rfl

/-- a NumPy scalar, another band, or a value below the threshold: as if every gate had the value -/
theorem blendedMix_same (P : Params α) (band : String) (dt : DType) (gs : List (α × α)) (k : Kind) (z : α)
    (h : k = .np ∨ band ≠ "S" ∨ (P.threshZdr <=. z) = false) :
    blendedMix P band dt (gs.map (·.1)) (.num k z) (.arr (gs.map (·.2))) =
      blendedArr P band dt (gs.map (·.1)) (gs.map (fun _ => z)) (gs.map (·.2)) := by
  by_cases hb : band = "S"
  · have ht : V.tilde (.num k (z >=. P.threshZdr)) = .num k (!(z >=. P.threshZdr)) := by
      rcases h with rfl | h | h
      · rfl
      · exact absurd hb h
      · cases k
        · simp only [V.tilde, PyFloat.ge, h]; rfl
        · rfl
    have hzd : calcZdp (gs.map (fun g => linearize g.1)) (gs.map (fun g => (calcZhZv g.1 z).2)) =
        gs.map (fun g => zdpDb g.1 z) := by rw [calcZdp_map]; rfl
    simp only [blendedMix, blendedArr, hb, if_true, V.map, ht, V.map2, V.copyTo, withArr, andArr, List.map_map,
      Function.comp_def, zipWith_map_const, zipWith_map_map, logicalAnd_map, logicalOr_map, invert_map, hzd]
    cases rainLine P <;> rfl
  · simp only [blendedMix, blendedArr, hb, if_false, V.map, V.copyTo, withArr, andArr]
    rfl

/-- a Python number at S band: as if the ZDR threshold were one the value does not reach -/
theorem blendedMix_py (P : Params α) (dt : DType) (gs : List (α × α)) (z t : α) (ht : (t <=. z) = false) :
    blendedMix P "S" dt (gs.map (·.1)) (.num .py z) (.arr (gs.map (·.2))) =
      blendedArr {P with threshZdr := t} "S" dt (gs.map (·.1)) (gs.map (fun _ => z)) (gs.map (·.2)) := by
  have hr : rainLine {P with threshZdr := t} = rainLine P := rfl
  cases hf : rainLine P with
  | error e => simp only [blendedMix, blendedArr, if_true, hr, hf]; rfl
  | ok ab =>
    obtain ⟨fa, fb⟩ := ab
    have key := blendedArr_S {P with threshZdr := t} fa fb (hr.trans hf) dt (gs.map (fun g => (g.1, z, g.2)))
    simp only [List.map_map, Function.comp_def] at key
    rw [key]
    have hzd : calcZdp (gs.map (fun g => linearize g.1)) (gs.map (fun g => (calcZhZv g.1 z).2)) =
        gs.map (fun g => zdpDb g.1 z) := by rw [calcZdp_map]; rfl
    simp only [blendedMix, if_true, V.map, V.tilde, V.map2, V.copyTo, withArr, andArr, List.map_map,
      Function.comp_def, zipWith_map_map, zipWith_map_const, logicalAnd_map, logicalOr_map, invert_map, hzd, hf,
      calcRainNexrad_map, maskSet_map, maskCopy_map]
    simp only [bind, Except.bind, pure, Except.pure, List.map_map, zipWith_map_map, Function.comp_def,
      calcRainNexrad_map, logicalAnd_map, logicalOr_map, invert_map, maskSet_map, maskCopy_map]
    congr 2
    · apply List.map_congr_left
      rintro ⟨d, k⟩ -
      simp only [methodS, rate, PyFloat.ge, ht]
      have e1 : (1 - (10:α) ^ ((fa * zdpDb d z + fb) / 10) / linearize d) = iceFraction fa fb d z := rfl
      simp only [e1]
      rcases Bool.eq_false_or_eq_true (iceFraction fa fb d z <. P.threshFracIce) with h4 | h4 <;>
        rcases Bool.eq_false_or_eq_true (P.threshDz <=. d) with h5 | h5 <;>
        rcases Bool.eq_false_or_eq_true (P.threshKdp <=. k) with h6 | h6 <;>
        rcases Bool.eq_false_or_eq_true (P.threshZdr <=. z) with h7 | h7 <;> simp [h4, h5, h6, h7] <;> rfl
    · apply List.map_congr_left
      rintro ⟨d, k⟩ -
      simp only [methodS, PyFloat.ge, ht]
      have e1 : (1 - (10:α) ^ ((fa * zdpDb d z + fb) / 10) / linearize d) = iceFraction fa fb d z := rfl
      simp only [e1]
      rcases Bool.eq_false_or_eq_true (iceFraction fa fb d z <. P.threshFracIce) with h4 | h4 <;>
        rcases Bool.eq_false_or_eq_true (P.threshDz <=. d) with h5 | h5 <;>
        rcases Bool.eq_false_or_eq_true (P.threshKdp <=. k) with h6 | h6 <;>
        rcases Bool.eq_false_or_eq_true (P.threshZdr <=. z) with h7 | h7 <;> simp [h4, h5, h6, h7]

/-- with four arrays the mixed model is the array model -/
theorem hidroMix_arr (P : Params α) (band : String) (dt : DType) (gs : List (α × α × α × Int)) :
    hidroMix P band dt (gs.map (·.1)) (.arr (gs.map (·.2.1))) (.arr (gs.map (·.2.2.1))) (.arr (gs.map (·.2.2.2))) =
      .ok (hidroArr P band dt (gs.map (·.1)) (gs.map (·.2.1)) (gs.map (·.2.2.1)) (gs.map (·.2.2.2))) := by
  by_cases hb : band = "S"
  · simp only [hidroMix, hidroArr, hb, if_true, V.map, V.map2, V.np, V.or, V.and, V.tilde, V.copyTo, withArr, andArr,
      List.map_map, Function.comp_def, zipWith_map_map, zipWith_map_const, logicalAnd_map, logicalOr_map, invert_map,
      calcRainNexrad_map, maskSet_map, maskCopy_map]
    simp only [bind, Except.bind, pure, Except.pure, maskSet_map, maskCopy_map]
    congr 2
    · apply List.map_congr_left
      rintro ⟨d, z, k, c⟩ -
      simp only [Bool.and_comm, Bool.or_comm]
    · apply List.map_congr_left
      rintro ⟨d, z, k, c⟩ -
      simp only [Bool.and_comm, Bool.or_comm]
  · simp only [hidroMix, hidroArr, hb, if_false, V.map, V.map2, V.np, V.or, V.and, V.tilde, V.copyTo, withArr, andArr,
      List.map_map, Function.comp_def, zipWith_map_map, zipWith_map_const, logicalAnd_map, logicalOr_map, invert_map,
      calcRainNexrad_map, maskSet_map, maskCopy_map]
    simp only [bind, Except.bind, pure, Except.pure, maskSet_map, maskCopy_map]

/-- one class number: as if every gate had the class, whatever the kind of number, with ZDR an array -/
theorem hidroMix_class_arr (P : Params α) (band : String) (dt : DType) (gs : List (α × α × α)) (kc : Kind) (c : Int) :
    hidroMix P band dt (gs.map (·.1)) (.arr (gs.map (·.2.1))) (.arr (gs.map (·.2.2))) (.num kc c) =
      hidroMix P band dt (gs.map (·.1)) (.arr (gs.map (·.2.1))) (.arr (gs.map (·.2.2))) (.arr (gs.map (fun _ => c))) := by
  by_cases hb : band = "S"
  · cases kc <;> simp only [hidroMix, hb, if_true, V.map, V.map2, V.np, V.or, V.and, V.tilde, V.copyTo, withArr, andArr,
      List.map_map, Function.comp_def, zipWith_map_map, zipWith_map_const, logicalAnd_map, logicalOr_map, invert_map,
      calcRainNexrad_map, maskSet_map, maskCopy_map]
  · cases kc <;> simp only [hidroMix, hb, if_false, V.map, V.map2, V.np, V.or, V.and, V.tilde, V.copyTo, withArr, andArr,
      List.map_map, Function.comp_def, zipWith_map_map, zipWith_map_const, logicalAnd_map, logicalOr_map, invert_map,
      calcRainNexrad_map, maskSet_map, maskCopy_map]

/-- the same with ZDR a number -/
theorem hidroMix_class_num (P : Params α) (band : String) (dt : DType) (gs : List (α × α)) (kz kc : Kind) (z : α)
    (c : Int) :
    hidroMix P band dt (gs.map (·.1)) (.num kz z) (.arr (gs.map (·.2))) (.num kc c) =
      hidroMix P band dt (gs.map (·.1)) (.num kz z) (.arr (gs.map (·.2))) (.arr (gs.map (fun _ => c))) := by
  by_cases hb : band = "S"
  · cases kc <;> cases kz <;> simp only [hidroMix, hb, if_true, V.map, V.map2, V.np, V.or, V.and, V.tilde, V.copyTo, withArr, andArr,
      List.map_map, Function.comp_def, zipWith_map_map, zipWith_map_const, logicalAnd_map, logicalOr_map, invert_map,
      calcRainNexrad_map, maskSet_map, maskCopy_map]
  · cases kc <;> cases kz <;> simp only [hidroMix, hb, if_false, V.map, V.map2, V.np, V.or, V.and, V.tilde, V.copyTo, withArr, andArr,
      List.map_map, Function.comp_def, zipWith_map_map, zipWith_map_const, logicalAnd_map, logicalOr_map, invert_map,
      calcRainNexrad_map, maskSet_map, maskCopy_map]

/-- one ZDR number: a NumPy scalar, another band, or a value below the threshold -/
theorem hidroMix_same (P : Params α) (band : String) (dt : DType) (gs : List (α × α × Int)) (kz : Kind) (z : α)
    (h : kz = .np ∨ band ≠ "S" ∨ (P.threshZdr <=. z) = false) :
    hidroMix P band dt (gs.map (·.1)) (.num kz z) (.arr (gs.map (·.2.1))) (.arr (gs.map (·.2.2))) =
      hidroMix P band dt (gs.map (·.1)) (.arr (gs.map (fun _ => z))) (.arr (gs.map (·.2.1))) (.arr (gs.map (·.2.2))) := by
  by_cases hb : band = "S"
  · have ht : V.tilde (.num kz (z >=. P.threshZdr)) = .num kz (!(z >=. P.threshZdr)) := by
      rcases h with rfl | h | h
      · rfl
      · exact absurd hb h
      · cases kz
        · simp only [V.tilde, PyFloat.ge, h]; rfl
        · rfl
    simp only [hidroMix, hb, if_true, V.map, ht]
    cases kz <;> simp only [V.map, V.map2, V.np, V.or, V.and, V.tilde, V.copyTo, withArr, andArr,
      List.map_map, Function.comp_def, zipWith_map_map, zipWith_map_const, logicalAnd_map, logicalOr_map, invert_map,
      calcRainNexrad_map, maskSet_map, maskCopy_map]
  · simp only [hidroMix, hb, if_false, V.map, V.map2, V.np, V.or, V.and, V.tilde, V.copyTo, withArr, andArr,
      List.map_map, Function.comp_def, zipWith_map_map, zipWith_map_const, logicalAnd_map, logicalOr_map, invert_map,
      calcRainNexrad_map, maskSet_map, maskCopy_map]

/-- a Python number at S band: as if the ZDR threshold were one the value does not reach -/
theorem hidroMix_py (P : Params α) (dt : DType) (gs : List (α × α × Int)) (z t : α) (ht : (t <=. z) = false) :
    hidroMix P "S" dt (gs.map (·.1)) (.num .py z) (.arr (gs.map (·.2.1))) (.arr (gs.map (·.2.2))) =
      hidroMix {P with threshZdr := t} "S" dt (gs.map (·.1)) (.arr (gs.map (fun _ => z))) (.arr (gs.map (·.2.1)))
        (.arr (gs.map (·.2.2))) := by
  simp only [hidroMix, if_true, V.map, V.map2, V.np, V.or, V.and, V.tilde, V.copyTo, withArr, andArr,
      List.map_map, Function.comp_def, zipWith_map_map, zipWith_map_const, logicalAnd_map, logicalOr_map, invert_map,
      calcRainNexrad_map, maskSet_map, maskCopy_map]
  simp only [bind, Except.bind, pure, Except.pure, maskSet_map, maskCopy_map, PyFloat.ge, ht]
  congr 2
  · apply List.map_congr_left
    rintro ⟨d, k, c⟩ -
    rcases Bool.eq_false_or_eq_true (P.threshDz <=. d) with h5 | h5 <;>
      rcases Bool.eq_false_or_eq_true (P.threshKdp <=. k) with h6 | h6 <;>
      rcases Bool.eq_false_or_eq_true (P.threshZdr <=. z) with h7 | h7 <;> simp [h5, h6, h7] <;>
      split_ifs <;> simp_all
  · apply List.map_congr_left
    rintro ⟨d, k, c⟩ -
    rcases Bool.eq_false_or_eq_true (P.threshDz <=. d) with h5 | h5 <;>
      rcases Bool.eq_false_or_eq_true (P.threshKdp <=. k) with h6 | h6 <;>
      rcases Bool.eq_false_or_eq_true (P.threshZdr <=. z) with h7 | h7 <;> simp [h5, h6, h7] <;>
      split_ifs <;> simp_all

/-! ## The functions as called -/

theorem filled_gates {β γ : Type} {a : List β} (gs : List γ) (f : γ → β) (h : gs.map f = a) {δ : Type} (z : δ) :
    a.map (fun _ => z) = gs.map (fun _ => z) := by
  rw [← h, List.map_map]; rfl

theorem mixed_of_body (P Q : Params α) (band : String) (ice : Bool) (d k : NdArray α) (kd : Kind) (z : α)
    (hs : d.shape = k.shape)
    (h : blendedMix P band d.dtype d.data (.num kd z) (.arr k.data) =
      blendedArr Q band d.dtype d.data (d.data.map (fun _ => z)) k.data) :
    returned (calcBlendedRainMixed P band ice d (.num kd z) (.arr k)) =
      calcBlendedRain Q band ice (some (.arr d)) (some (.arr (filled .float d z))) (some (.arr k)) := by
  simp only [calcBlendedRainMixed, calcBlendedRain, Arg.val, filled, hs, h, if_true, and_self, bind, Except.bind]
  cases blendedArr Q band d.dtype d.data (d.data.map (fun _ => z)) k.data with
  | error e => rfl
  | ok o =>
    simp only
    split
    · rfl
    · cases o.ice with
      | none => rfl
      | some p => rfl

/-- **C153 (all arrays).** The mixed model agrees with the array model when nothing is mixed. -/
theorem C153_arrays (P : Params α) (band : String) (ice : Bool) (d z k : NdArray α) (h1 : d.shape = z.shape)
    (h2 : d.shape = k.shape) :
    returned (calcBlendedRainMixed P band ice d (.arr z) (.arr k)) =
      calcBlendedRain P band ice (some (.arr d)) (some (.arr z)) (some (.arr k)) := by
  simp only [calcBlendedRainMixed, calcBlendedRain, Arg.val, ← h1, ← h2, if_true, and_self, bind, Except.bind,
    blendedMix_arr]
  cases blendedArr P band d.dtype d.data z.data k.data with
  | error e => rfl
  | ok o =>
    simp only
    split
    · rfl
    · cases o.ice with
      | none => rfl
      | some p => rfl

/-- **C153 (blended rain, the part that holds).** One ZDR number beside arrays is answered as if every gate had that
value, provided the number is a NumPy scalar, or the band is not S, or the value does not reach the ZDR threshold. -/
theorem C153_blended_partial (P : Params α) (band : String) (ice : Bool) (d k : NdArray α) (hd : d.WF) (hk : k.WF)
    (hs : d.shape = k.shape) (kd : Kind) (z : α) (h : kd = .np ∨ band ≠ "S" ∨ (P.threshZdr <=. z) = false) :
    returned (calcBlendedRainMixed P band ice d (.num kd z) (.arr k)) =
      calcBlendedRain P band ice (some (.arr d)) (some (.arr (filled .float d z))) (some (.arr k)) := by
  have hl : d.data.length = k.data.length := by rw [hd, hk, hs]
  obtain ⟨gs, h1, h2⟩ := exists_gates2 d.data k.data hl
  apply mixed_of_body P P band ice d k kd z hs
  rw [filled_gates gs _ h1, ← h1, ← h2]
  exact blendedMix_same P band d.dtype gs kd z h

/-- **C153 (blended rain, what happens otherwise).** A plain Python number at S band is answered as the call whose ZDR
threshold the value does not reach: ZDR is never found large. -/
theorem C153_blended_python (P : Params α) (ice : Bool) (d k : NdArray α) (hd : d.WF) (hk : k.WF)
    (hs : d.shape = k.shape) (z t : α) (ht : (t <=. z) = false) :
    returned (calcBlendedRainMixed P "S" ice d (.num .py z) (.arr k)) =
      calcBlendedRain {P with threshZdr := t} "S" ice (some (.arr d)) (some (.arr (filled .float d z)))
        (some (.arr k)) := by
  have hl : d.data.length = k.data.length := by rw [hd, hk, hs]
  obtain ⟨gs, h1, h2⟩ := exists_gates2 d.data k.data hl
  apply mixed_of_body P {P with threshZdr := t} "S" ice d k .py z hs
  rw [filled_gates gs _ h1, ← h1, ← h2]
  exact blendedMix_py P d.dtype gs z t ht

/-- what reaches the gates of a class argument -/
def classArr {β : Type} (d : NdArray β) : Arg Int → NdArray Int
  | .num _ c => filled .int d c
  | .arr a => a

theorem hidro_of_gates (P : Params α) (band : String) (d z k : NdArray α) (c : NdArray Int)
    (gs : List (α × α × α × Int)) (h1 : gs.map (·.1) = d.data) (h2 : gs.map (·.2.1) = z.data)
    (h3 : gs.map (·.2.2.1) = k.data) (h4 : gs.map (·.2.2.2) = c.data) (s1 : d.shape = z.shape) (s2 : d.shape = k.shape)
    (s3 : d.shape = c.shape) :
    csuHidroRain P band (some (.arr d)) (some (.arr z)) (some (.arr k)) (some (.arr c)) =
      returned (csuHidroRainMixed P band d (.arr z) (.arr k) (.arr c)) := by
  simp only [csuHidroRain, csuHidroRainMixed, Arg.val, ← s1, ← s2, ← s3, if_true, and_self, bind, Except.bind,
    ← h1, ← h2, ← h3, ← h4, hidroMix_arr]
  rfl

/-- **C153 (class-guided rain, the part that holds).** One ZDR number and one class or an array of classes beside
arrays: as if every gate had those values, under the same condition on the ZDR number; the class may be any kind of
number. -/
theorem C153_hidro_partial (P : Params α) (band : String) (d k : NdArray α) (c : Arg Int) (hd : d.WF) (hk : k.WF)
    (hs : d.shape = k.shape) (hc : ∀ a, c = .arr a → a.WF ∧ a.shape = d.shape) (kd : Kind) (z : α)
    (h : kd = .np ∨ band ≠ "S" ∨ (P.threshZdr <=. z) = false) :
    returned (csuHidroRainMixed P band d (.num kd z) (.arr k) c) =
      csuHidroRain P band (some (.arr d)) (some (.arr (filled .float d z))) (some (.arr k))
        (some (.arr (classArr d c))) := by
  have hl : d.data.length = k.data.length := by rw [hd, hk, hs]
  cases c with
  | num kc c =>
    obtain ⟨gs, h1, h2⟩ := exists_gates2 d.data k.data hl
    rw [classArr, hidro_of_gates P band d (filled .float d z) k (filled .int d c) (gs.map (fun g => (g.1, z, g.2, c)))
      (by simp [Function.comp_def, ← h1]) (by simp [filled, ← h1, Function.comp_def])
      (by simp [Function.comp_def, ← h2]) (by simp [filled, ← h1, Function.comp_def]) rfl hs rfl]
    have := hidroMix_same P band d.dtype (gs.map (fun g => (g.1, g.2, c))) kd z h
    simp only [List.map_map, Function.comp_def] at this
    simp only [csuHidroRainMixed, Arg.val, filled, ← hs, if_true, bind, Except.bind, ← h1, ← h2,
      hidroMix_class_num, List.map_map, Function.comp_def, this]
  | arr c =>
    obtain ⟨hw, hcs⟩ := hc c rfl
    have hl2 : d.data.length = c.data.length := by rw [hd, hw, hcs]
    obtain ⟨gs, h1, h2, h3⟩ := exists_gates3 d.data k.data c.data hl hl2
    rw [classArr, hidro_of_gates P band d (filled .float d z) k c (gs.map (fun g => (g.1, z, g.2.1, g.2.2)))
      (by simp [Function.comp_def, ← h1]) (by simp [filled, ← h1, Function.comp_def])
      (by simp [Function.comp_def, ← h2]) (by simp [Function.comp_def, ← h3]) rfl hs hcs.symm]
    have := hidroMix_same P band d.dtype gs kd z h
    simp only [csuHidroRainMixed, Arg.val, filled, ← hs, hcs, if_true, bind, Except.bind, ← h1, ← h2, ← h3, List.map_map,
      Function.comp_def, this]

/-- **C153 (class-guided rain, one class).** With ZDR an array, one class number beside arrays is the same as that class
in every gate, at every band. -/
theorem C153_hidro_class (P : Params α) (band : String) (d z k : NdArray α) (kc : Kind) (c : Int)
    (hs : SameShape d z k) :
    returned (csuHidroRainMixed P band d (.arr z) (.arr k) (.num kc c)) =
      csuHidroRain P band (some (.arr d)) (some (.arr z)) (some (.arr k)) (some (.arr (filled .int d c))) := by
  obtain ⟨hl1, hl2⟩ := SameShape.lengths hs
  obtain ⟨gs, h1, h2, h3⟩ := exists_gates3 d.data z.data k.data hl1 hl2
  rw [hidro_of_gates P band d z k (filled .int d c) (gs.map (fun g => (g.1, g.2.1, g.2.2, c)))
    (by simp [Function.comp_def, ← h1]) (by simp [Function.comp_def, ← h2])
    (by simp [Function.comp_def, ← h3]) (by simp [filled, ← h1, Function.comp_def]) hs.2.2.2.1 hs.2.2.2.2 rfl]
  simp only [csuHidroRainMixed, Arg.val, filled, hs.2.2.2.1.symm, hs.2.2.2.2.symm, if_true, bind, Except.bind, ← h1,
    ← h2, ← h3, hidroMix_class_arr, List.map_map, Function.comp_def]

/-- **C153 (class-guided rain, what happens otherwise).** -/
theorem C153_hidro_python (P : Params α) (d k : NdArray α) (c : NdArray Int) (hd : d.WF) (hk : k.WF) (hc : c.WF)
    (hs : d.shape = k.shape) (hcs : d.shape = c.shape) (z t : α) (ht : (t <=. z) = false) :
    returned (csuHidroRainMixed P "S" d (.num .py z) (.arr k) (.arr c)) =
      csuHidroRain {P with threshZdr := t} "S" (some (.arr d)) (some (.arr (filled .float d z))) (some (.arr k))
        (some (.arr c)) := by
  have hl : d.data.length = k.data.length := by rw [hd, hk, hs]
  have hl2 : d.data.length = c.data.length := by rw [hd, hc, hcs]
  obtain ⟨gs, h1, h2, h3⟩ := exists_gates3 d.data k.data c.data hl hl2
  rw [hidro_of_gates {P with threshZdr := t} "S" d (filled .float d z) k c (gs.map (fun g => (g.1, z, g.2.1, g.2.2)))
    (by simp [Function.comp_def, ← h1]) (by simp [filled, ← h1, Function.comp_def])
    (by simp [Function.comp_def, ← h2]) (by simp [Function.comp_def, ← h3]) rfl hs hcs]
  have := hidroMix_py P d.dtype gs z t ht
  simp only [csuHidroRainMixed, Arg.val, filled, ← hs, ← hcs, if_true, bind, Except.bind, ← h1, ← h2, ← h3,
    List.map_map, Function.comp_def, this]

/-- **C153 (KDP).** One KDP number beside an array of reflectivity never gives an answer: the call raises. -/
theorem C153_kdp_number_raises (P : Params α) (band : String) (ice : Bool) (d : NdArray α) (z : Arg α) (kd : Kind)
    (k : α) : ¬ ∃ r, calcBlendedRainMixed P band ice d z (.num kd k) = .ok r := by
  rintro ⟨r, h⟩
  simp only [calcBlendedRainMixed, Arg.val, bind, Except.bind] at h
  cases hz : z.val d.shape with
  | error e => unfold Arg.val at hz; rw [hz] at h; cases h
  | ok zv =>
    unfold Arg.val at hz
    rw [hz] at h
    simp only [blendedMix, V.map, bind, Except.bind] at h
    by_cases hb : band = "S"
    · simp only [hb, if_true] at h
      cases hr : rainLine P with
      | error e => simp [hr] at h
      | ok ab => simp only [hr] at h; cases zv with
        | num kz z => cases kd <;> cases kz <;> simp [V.map2, V.copyTo] at h
        | arr l => cases kd <;> simp [V.map2, V.copyTo] at h
    · simp only [hb, if_false] at h
      cases kd <;> simp [V.copyTo] at h

/-- the argument is a NumPy scalar -/
def Arg.isNpNum {α : Type} : Arg α → Bool
  | .num .np _ => true
  | _ => false

/-- **C153 (KDP, which exception).** With a usable rain line and shapes that agree, a Python KDP number raises TypeError
and a NumPy one IndexError; a Python KDP with a NumPy ZDR at S band also gives IndexError (their product is a NumPy
scalar). -/
theorem C153_kdp_exception (P : Params α) (fa fb : α) (hP : rainLine P = .ok (fa, fb)) (band : String) (ice : Bool)
    (d : NdArray α) (z : Arg α) (hz : ∀ a, z = .arr a → d.shape = a.shape) (kd : Kind) (k : α) :
    calcBlendedRainMixed P band ice d z (.num kd k) =
      .error (if kd = .np ∨ (band = "S" ∧ z.isNpNum = true) then .indexError else .typeError) := by
  by_cases hb : band = "S"
  · cases z with
    | num kz z => cases kd <;> cases kz <;>
        simp [calcBlendedRainMixed, Arg.val, blendedMix, hb, hP, V.map, V.map2, V.copyTo, bind, Except.bind, Arg.isNpNum]
    | arr a => cases kd <;>
        simp [calcBlendedRainMixed, Arg.val, hz a rfl, blendedMix, hb, hP, V.map, V.map2, V.copyTo, bind, Except.bind,
          Arg.isNpNum]
  · cases z with
    | num kz z => cases kd <;>
        simp [calcBlendedRainMixed, Arg.val, blendedMix, hb, V.map, V.map2, V.copyTo, bind, Except.bind, Arg.isNpNum]
    | arr a => cases kd <;>
        simp [calcBlendedRainMixed, Arg.val, hz a rfl, blendedMix, hb, V.map, V.map2, V.copyTo, bind, Except.bind,
          Arg.isNpNum]

/-! ## The claim a user would make, and why it fails -/

/-- The full claim: one ZDR number beside arrays, of either kind and at any band, is answered as if every gate had that
value. -/
def C153Full : Prop :=
  ∀ (P : Params XR) (band : String) (ice : Bool) (d k : NdArray XR), d.WF → k.WF → d.shape = k.shape →
    ∀ (kd : Kind) (z : XR), returned (calcBlendedRainMixed P band ice d (.num kd z) (.arr k)) =
      calcBlendedRain P band ice (some (.arr d)) (some (.arr (filled .float d z))) (some (.arr k))

/-- The same for the class-guided function. -/
def C153HidroFull (α : Type) [PyFloat α] : Prop :=
  ∀ (P : Params α) (band : String) (d k : NdArray α) (c : NdArray Int), d.WF → k.WF → c.WF → d.shape = k.shape →
    d.shape = c.shape → ∀ (kd : Kind) (z : α),
      returned (csuHidroRainMixed P band d (.num kd z) (.arr k) (.arr c)) =
        csuHidroRain P band (some (.arr d)) (some (.arr (filled .float d z))) (some (.arr k)) (some (.arr c))

/-- the methods of a result -/
def methodsOf {α : Type} : Except PyErr (Option (Ret α)) → Option (List Int)
  | .ok (some (.arr _ m _)) => some m.data
  | _ => none

/-- moderate rain: 40 dBZ, 3 dB, 1 deg/km has an ice fraction below 10 % -/
theorem gate_method : defMethodS 40 3 1 = 1 := by
  have h1 : (10 : ℝ) ^ (-(3 / 10 : ℝ)) ≤ 0.52 := by
    have h0 : (0 : ℝ) ≤ 10 ^ (-(3 / 10 : ℝ)) := by positivity
    refine le_of_pow_le_pow_left₀ (n := 10) (by norm_num) (by norm_num) ?_
    rw [← Real.rpow_natCast, ← Real.rpow_mul (by norm_num)]
    norm_num
  have hz3 : zLin 40 / zLin 3 = 10 ^ 4 * (10 : ℝ) ^ (-(3 / 10 : ℝ)) := by
    unfold zLin
    rw [Real.rpow_neg (by norm_num)]
    norm_num
    rfl
  have h40 : zLin 40 = 10 ^ 4 := by unfold zLin; norm_num
  have hd : (4800 : ℝ) ≤ zLin 40 - zLin 40 / zLin 3 := by rw [hz3, h40]; linarith
  have hdp : 36 ≤ zDpDb 40 3 := by
    unfold zDpDb
    rw [if_neg (by linarith)]
    have : (3.6 : ℝ) ≤ Real.logb 10 (zLin 40 - zLin 40 / zLin 3) := by
      rw [Real.le_logb_iff_rpow_le (by norm_num) (by linarith)]
      refine le_trans ?_ hd
      refine le_of_pow_le_pow_left₀ (n := 5) (by norm_num) (by norm_num) ?_
      rw [← Real.rpow_natCast, ← Real.rpow_mul (by norm_num)]
      norm_num
    linarith
  have hr : 40 ≤ rainDbz 40 3 := by unfold rainDbz; linarith
  have hf : fracIce 40 3 < 0.1 := by
    have : zLin 40 ≤ zLin (rainDbz 40 3) := by
      unfold zLin
      exact Real.rpow_le_rpow_of_exponent_le (by norm_num) (by linarith)
    have h2 : 1 ≤ zLin (rainDbz 40 3) / zLin 40 := (one_le_div (zLin_pos 40)).2 this
    unfold fracIce
    linarith
  unfold defMethodS
  rw [if_pos (by norm_num), if_pos ⟨hf, by norm_num⟩]

/-- **C153 is false**: with every keyword at its default, the gate of 40 dBZ, 3 dB and 1 deg/km is given method 1 when
ZDR is an array and method 2 when it is the Python number 3.0. -/
theorem C153_full_false : ¬ C153Full := by
  intro h
  have e := h Params.default "S" false ⟨.float, [1], [XR.fin 40]⟩ ⟨.float, [1], [XR.fin 1]⟩ rfl rfl rfl .py (XR.fin 3)
  rw [C153_blended_python Params.default false ⟨.float, [1], [XR.fin 40]⟩ ⟨.float, [1], [XR.fin 1]⟩ rfl rfl rfl
    (XR.fin 3) XR.nan rfl] at e
  have hs : SameShape (⟨.float, [1], [XR.fin 40]⟩ : NdArray XR)
    (filled .float (⟨.float, [1], [XR.fin 40]⟩ : NdArray XR) (XR.fin 3)) (⟨.float, [1], [XR.fin 1]⟩ : NdArray XR) :=
    ⟨rfl, rfl, rfl, rfl, rfl⟩
  obtain ⟨r, m, e1, -, -, -, -, hm⟩ := C38_blended_S_exact (Params.default : Params XR) 0.9091 8.5091
    (.inr (.inr (.inl ⟨rfl, rfl, rfl, rfl⟩))) _ _ _ hs
  obtain ⟨r', m', e1', -, -, -, -, hm'⟩ := C38_blended_S_exact ({Params.default with threshZdr := XR.nan} : Params XR)
    0.9091 8.5091 (.inr (.inr (.inl ⟨rfl, rfl, rfl, rfl⟩))) _ _ _ hs
  rw [e1, e1'] at e
  injection e with e; injection e with e; injection e with _ e _
  subst e
  have a := (hm 0 _ _ _ rfl rfl rfl).1
  have b := (hm' 0 _ _ _ rfl rfl rfl).1
  rw [a] at b; beta_reduce at b; rw [methodS_real, gate_method] at b
  injection b with b
  revert b
  unfold methodS
  have : ((XR.nan : XR) <=. XR.fin 3) = false := rfl
  simp only [this]
  split_ifs <;> simp_all

/-- The class-guided function too: rain of 45 dBZ and 2 deg/km with the Python number ZDR = 1 gets method 2, with an
array method 1. -/
theorem C153_hidro_full_false : ¬ C153HidroFull QF := by
  intro h
  have e := congrArg methodsOf (h Params.default "S" ⟨.float, [2], [45, 20]⟩ ⟨.float, [2], [2, 0]⟩ ⟨.int, [2], [2, 2]⟩
    (by decide) (by decide) (by decide) rfl rfl .py 1)
  revert e
  decide +kernel

/-! ## Concrete cases -/

example : methodsOf (returned (csuHidroRainMixed (α := QF) Params.default "S" ⟨.float, [2], [45, 20]⟩ (.num .py 1)
    (.arr ⟨.float, [2], [2, 0]⟩) (.num .py 2))) = some [2, 4] := by decide +kernel
example : methodsOf (returned (csuHidroRainMixed (α := QF) Params.default "S" ⟨.float, [2], [45, 20]⟩ (.num .np 1)
    (.arr ⟨.float, [2], [2, 0]⟩) (.num .py 2))) = some [1, 4] := by decide +kernel
example : methodsOf (returned (calcBlendedRainMixed (α := QF) Params.default "X" true ⟨.float, [2], [45, 20]⟩
    (.num .py 1) (.arr ⟨.float, [2], [2, 0]⟩))) = some [2, 4] := by decide +kernel
/-- the hypotheses of the python rule and of the partial theorem are met -/
example : ((QF.nan : QF) <=. 1) = false ∧ ((Params.default : Params QF).threshZdr <=. 0.3) = false ∧
    ((Params.default : Params QF).threshZdr <=. 1) = true := by decide +kernel

end Csu.Rain
