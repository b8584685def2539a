import Verif.Props.RainMixed
/-!
# Property C154: numbers mixed with arrays in the tropical rain function
-/
set_option linter.unusedSimpArgs false
namespace Csu.Rain
open Csu PyFloat Csu.Common Csu.LiquidIce Csu.RainSpec
variable {α : Type} [PyFloat α]

/-- an optional column of integers given as an array, one number, or not at all -/
def vcol {ι : Type} (how : Option (Option Kind)) (gs : List ι) (f : ι → Int) (c : Int) : Option (V Int) :=
  match how with
  | none => none
  | some none => some (.arr (gs.map f))
  | some (some k) => some (.num k c)

/-- one gate when ZDR is a Python number: where reflectivity and KDP are high, ZDR is never found large -/
def tropGatePy (P : TropParams α) (t : α) (dt : DType) (csOn fhcOn : Bool) (d z k : α) (c f : Int) : α × Int :=
  if (P.threshKdp <=. k) && (P.threshDz <=. d) then tropGate {P with threshZdr := t} dt csOn fhcOn d z k c f
  else tropGate P dt csOn fhcOn d z k c f

/-- a class or rain-type number is the same as a filled array -/
theorem tropicalMix_class {ι : Type} (P : TropParams α) (dt : DType) (gs : List ι) (df kf : ι → α) (cf ff : ι → Int)
    (Z : V α) (hz : ∀ l, Z = .arr l → ∃ zf : ι → α, l = gs.map zf) (c f : Option (Option Kind)) (cn fn : Int)
    (hc : ∀ k, c = some (some k) → ∀ g ∈ gs, cf g = cn) (hf : ∀ k, f = some (some k) → ∀ g ∈ gs, ff g = fn) :
    tropicalMix P dt (gs.map df) Z (.arr (gs.map kf)) (vcol c gs cf cn) (vcol f gs ff fn) =
      tropicalMix P dt (gs.map df) Z (.arr (gs.map kf)) (vcol (c.map fun _ => none) gs cf cn)
        (vcol (f.map fun _ => none) gs ff fn) := by
  have eqc : ∀ k, c = some (some k) → gs.map cf = gs.map (fun _ => cn) := fun k h =>
    List.map_congr_left (hc k h)
  have eqf : ∀ k, f = some (some k) → gs.map ff = gs.map (fun _ => fn) := fun k h =>
    List.map_congr_left (hf k h)
  obtain ⟨kz, z, rfl⟩ | ⟨zf, rfl⟩ : (∃ kz z, Z = .num kz z) ∨ ∃ zf : ι → α, Z = .arr (gs.map zf) := by
    cases Z with
    | num kz z => exact .inl ⟨kz, z, rfl⟩
    | arr l => obtain ⟨zf, rfl⟩ := hz l rfl; exact .inr ⟨zf, rfl⟩
  all_goals
    rcases c with _ | (_ | kc) <;> rcases f with _ | (_ | kf) <;> 
    simp only [vcol, Option.map] <;>
    (try rw [eqc _ rfl]) <;> (try rw [eqf _ rfl]) <;>
    (try cases kc) <;> (try cases kf) <;> (try cases kz) <;>
    simp only [tropicalMix, V.map, V.map2, V.np, V.or, V.and, V.tilde, V.copyTo, withArr, andArr, List.map_map, Function.comp_def,
      zipWith_map_map, zipWith_map_const, invert_map, maskSet_map, maskCopy_map]

/-- what `tropicalMix` with arrays for the classes and a ZDR number or array computes, gate by gate -/
theorem tropicalMix_gates (P : TropParams α) (dt : DType) (csOn fhcOn : Bool)
    (gs : List (α × α × α × Int × Int)) :
    tropicalMix P dt (gs.map (·.1)) (.arr (gs.map (·.2.1))) (.arr (gs.map (·.2.2.1)))
      ((col csOn gs (·.2.2.2.1)).map .arr) ((col fhcOn gs (·.2.2.2.2)).map .arr) =
      .ok (gs.map (fun g => (tropGate P dt csOn fhcOn g.1 g.2.1 g.2.2.1 g.2.2.2.1 g.2.2.2.2).1),
       gs.map (fun g => (tropGate P dt csOn fhcOn g.1 g.2.1 g.2.2.1 g.2.2.2.1 g.2.2.2.2).2)) := by
  have key := tropicalArr_gates P "" "" dt csOn fhcOn gs
  have hp : tropPredef "" "" P = P := rfl
  rw [hp] at key
  dsimp only at key
  rw [← key]
  unfold tropicalArr
  rw [hp]
  cases csOn <;> cases fhcOn <;>
    simp only [tropicalMix, col, if_true, if_false, Bool.false_eq_true, Option.map, V.map, V.map2, V.np, V.or, V.and,
      V.tilde, V.copyTo, withArr, andArr, List.map_map, Function.comp_def,
      zipWith_map_map, zipWith_map_const, logicalAnd_map, invert_map, maskSet_map, maskCopy_map, bind, Except.bind, pure,
      Except.pure] <;>
    simp only [Bool.and_comm]

/-- a NumPy ZDR scalar, or a value below the threshold: as a filled array -/
theorem tropicalMix_same (P : TropParams α) (dt : DType) (csOn fhcOn : Bool) (gs : List (α × α × Int × Int)) (kd : Kind)
    (z : α) (h : kd = .np ∨ (P.threshZdr <=. z) = false) :
    tropicalMix P dt (gs.map (·.1)) (.num kd z) (.arr (gs.map (·.2.1)))
      ((col csOn gs (·.2.2.1)).map .arr) ((col fhcOn gs (·.2.2.2)).map .arr) =
    tropicalMix P dt (gs.map (·.1)) (.arr (gs.map (fun _ => z))) (.arr (gs.map (·.2.1)))
      ((col csOn gs (·.2.2.1)).map .arr) ((col fhcOn gs (·.2.2.2)).map .arr) := by
  have ht : V.tilde (.num kd (z >=. P.threshZdr)) = .num kd (!(z >=. P.threshZdr)) := by
    rcases h with rfl | h
    · rfl
    · cases kd
      · simp only [V.tilde, PyFloat.ge, h]; rfl
      · rfl
  simp only [tropicalMix, V.map, ht]
  cases csOn <;> cases fhcOn <;>
    simp only [col, if_true, if_false, Bool.false_eq_true, Option.map, V.map, V.map2, V.np, V.or, V.and,
      V.tilde, V.copyTo, withArr, andArr, List.map_map, Function.comp_def,
      zipWith_map_map, zipWith_map_const, logicalAnd_map, invert_map, maskSet_map, maskCopy_map, bind, Except.bind, pure,
      Except.pure]

/-- a Python ZDR number, gate by gate -/
theorem tropicalMix_py (P : TropParams α) (dt : DType) (csOn fhcOn : Bool) (gs : List (α × α × Int × Int))
    (z t : α) (ht : (t <=. z) = false) :
    tropicalMix P dt (gs.map (·.1)) (.num .py z) (.arr (gs.map (·.2.1)))
      ((col csOn gs (·.2.2.1)).map .arr) ((col fhcOn gs (·.2.2.2)).map .arr) =
      .ok (gs.map (fun g => (tropGatePy P t dt csOn fhcOn g.1 z g.2.1 g.2.2.1 g.2.2.2).1),
       gs.map (fun g => (tropGatePy P t dt csOn fhcOn g.1 z g.2.1 g.2.2.1 g.2.2.2).2)) := by
  rcases Bool.eq_false_or_eq_true (P.threshZdr <=. z) with hz | hz
  · cases csOn <;> cases fhcOn <;>
      simp only [tropicalMix, col, if_true, if_false, Bool.false_eq_true, Option.map, V.map, V.map2, V.np, V.or, V.and,
        V.tilde, V.copyTo, withArr, andArr, List.map_map, Function.comp_def,
        zipWith_map_map, zipWith_map_const, logicalAnd_map, invert_map, maskSet_map, maskCopy_map, bind, Except.bind,
        pure, Except.pure, PyFloat.ge, hz] <;>
      congr 2 <;> apply List.map_congr_left <;> rintro ⟨d, k, c, f⟩ - <;>
      simp only [tropGatePy, tropGate, tropMethod, tropRate, ht, hz] <;>
      (rcases Bool.eq_false_or_eq_true (d <. -10) with h4 | h4
       · simp [h4]
       rcases Bool.eq_false_or_eq_true (P.threshDz <=. d) with h5 | h5 <;>
         rcases Bool.eq_false_or_eq_true (P.threshKdp <=. k) with h6 | h6 <;> simp [h4, h5, h6] <;> 
         (try split_ifs) <;> (try rfl) <;> simp_all)
  · have := tropicalMix_same P dt csOn fhcOn gs .py z (.inr hz)
    rw [this]
    have key := tropicalMix_gates P dt csOn fhcOn (gs.map (fun g => (g.1, z, g.2.1, g.2.2.1, g.2.2.2)))
    have e : ∀ (d k : α) (c f : Int), tropGatePy P t dt csOn fhcOn d z k c f = tropGate P dt csOn fhcOn d z k c f := by
      intro d k c f
      unfold tropGatePy
      split_ifs
      · simp only [tropGate, tropMethod, tropRate, ht, hz]
      · rfl
    cases csOn <;> cases fhcOn <;>
      simpa only [col, if_true, if_false, Bool.false_eq_true, Option.map, List.map_map, Function.comp_def, e] using key

/-! ## The function as called -/

/-- an optional class or rain-type argument as the array it stands for -/
def classOpt {β : Type} (d : NdArray β) (a : Option (Arg Int)) : Option Cls := a.map (fun a => .arr (classArr d a))

/-- an array argument has the shape of `d`, if there is one -/
def FitsOpt {β : Type} (d : NdArray β) (a : Option (Arg Int)) : Prop := ∀ x, a = some (.arr x) → x.WF ∧ x.shape = d.shape

/-- the integers at the gates -/
def ints {β : Type} (d : NdArray β) : Option (Arg Int) → List Int
  | none => d.data.map (fun _ => 0)
  | some a => (classArr d a).data

theorem ints_length {β : Type} (d : NdArray β) (hd : d.WF) (a : Option (Arg Int)) (h : FitsOpt d a) :
    d.data.length = (ints d a).length := by
  rcases a with _ | (⟨k, c⟩ | x)
  · simp [ints]
  · simp [ints, classArr, filled]
  · obtain ⟨h1, h2⟩ := h x rfl
    simp only [ints, classArr]
    rw [hd, h1, h2]

/-- how an argument was given -/
def howOf : Option (Arg Int) → Option (Option Kind)
  | none => none
  | some (.num k _) => some (some k)
  | some (.arr _) => some none

/-- its number, if it was one -/
def numOf : Option (Arg Int) → Int
  | some (.num _ c) => c
  | _ => 0

theorem optVal_vcol {β ι : Type} (d : NdArray β) (a : Option (Arg Int)) (h : FitsOpt d a) (gs : List ι) (f : ι → Int)
    (hg : gs.map f = ints d a) : optVal d.shape a = .ok (vcol (howOf a) gs f (numOf a)) := by
  rcases a with _ | (⟨k, c⟩ | x)
  · rfl
  · rfl
  · have := (h x rfl).2
    simp only [optVal, Arg.val, this, if_true, howOf, vcol, hg, ints, classArr]
    rfl

theorem vcol_col {β ι : Type} (d : NdArray β) (a : Option (Arg Int)) (gs : List ι) (f : ι → Int) (cn : Int)
    : vcol ((howOf a).map fun _ => none) gs f cn = (col a.isSome gs f).map .arr := by
  rcases a with _ | (⟨k, c⟩ | x) <;> rfl

theorem how_const {β ι : Type} (d : NdArray β) (a : Option (Arg Int)) (gs : List ι) (f : ι → Int)
    (hg : gs.map f = ints d a) : ∀ k, howOf a = some (some k) → ∀ g ∈ gs, f g = numOf a := by
  intro k hk g hg'
  rcases a with _ | (⟨k', c⟩ | x)
  · cases hk
  · have : f g ∈ gs.map f := List.mem_map_of_mem hg'
    rw [hg] at this
    simp only [ints, classArr, filled, List.mem_map] at this
    obtain ⟨_, _, rfl⟩ := this
    rfl
  · cases hk

/-- the all-array function on gates -/
theorem tropical_gates_call (P : TropParams α) (predef band : String) (d z k : NdArray α) (cs fhc : Option (Arg Int))
    (h1 : d.shape = z.shape) (h2 : d.shape = k.shape) (hc : FitsOpt d cs) (hf : FitsOpt d fhc)
    (gs : List (α × α × α × Int × Int)) (g1 : gs.map (·.1) = d.data) (g2 : gs.map (·.2.1) = z.data)
    (g3 : gs.map (·.2.2.1) = k.data) (g4 : gs.map (·.2.2.2.1) = ints d cs) (g5 : gs.map (·.2.2.2.2) = ints d fhc) :
    calcBlendedRainTropical P predef band (some (.arr d)) (some (.arr z)) (some (.arr k)) (classOpt d cs)
      (classOpt d fhc) =
      .ok (some (.arr
        ⟨d.dtype, d.shape, gs.map (fun g => (tropGate (tropPredef predef band P) d.dtype cs.isSome fhc.isSome g.1 g.2.1
          g.2.2.1 g.2.2.2.1 g.2.2.2.2).1)⟩
        ⟨.int, d.shape, gs.map (fun g => (tropGate (tropPredef predef band P) d.dtype cs.isSome fhc.isSome g.1 g.2.1
          g.2.2.1 g.2.2.2.1 g.2.2.2.2).2)⟩ none)) := by
  have key := tropicalArr_gates P predef band d.dtype cs.isSome fhc.isSome gs
  dsimp only at key
  have sc : ∀ a, cs = some a → (classArr d a).shape = d.shape := by
    rintro (⟨k, c⟩ | x) e
    · rfl
    · exact (hc x e).2
  have sf : ∀ a, fhc = some a → (classArr d a).shape = d.shape := by
    rintro (⟨k, c⟩ | x) e
    · rfl
    · exact (hf x e).2
  rcases cs with _ | cs <;> rcases fhc with _ | fhc <;>
    simp only [Option.isSome, col, if_true, if_false, Bool.false_eq_true, g1, g2, g3, g4, g5, ints] at key ⊢ <;>
    simp only [calcBlendedRainTropical, classOpt, Option.map, ← h1, ← h2, and_self, if_true] <;>
    (try rw [sc _ rfl]) <;> (try rw [sf _ rfl]) <;> simp only [if_true, and_self, key]

theorem col_gates {ι κ : Type} (on : Bool) (gs : List ι) (e : ι → κ) (f : κ → Int) :
    col on (gs.map e) f = col on gs (fun g => f (e g)) := by
  cases on <;> simp [col, Function.comp_def]

/-- the mixed call once the body is known -/
theorem tropical_mixed_call {ι : Type} (P : TropParams α) (predef band : String) (d k : NdArray α) (Z : Arg α) (z : V α)
    (cs fhc : Option (Arg Int)) (hz : Z.val d.shape = .ok z)
    (hs : d.shape = k.shape) (hc : FitsOpt d cs) (hf : FitsOpt d fhc)
    (hp : (predef = "True" ∧ band = "S") → ∃ l, z = .arr l)
    (gs : List ι) (df kf : ι → α) (cf ff : ι → Int) (hzl : ∀ l, z = .arr l → ∃ zf : ι → α, l = gs.map zf)
    (h1 : gs.map df = d.data) (h2 : gs.map kf = k.data)
    (h3 : gs.map cf = ints d cs) (h4 : gs.map ff = ints d fhc) (r : List α) (m : List Int)
    (hb : tropicalMix (tropPredef predef band P) d.dtype (gs.map df) z (.arr (gs.map kf))
      ((col cs.isSome gs cf).map .arr) ((col fhc.isSome gs ff).map .arr) = .ok (r, m)) :
    calcBlendedRainTropicalMixed P predef band d Z (.arr k) cs fhc =
      .ok (.arr ⟨d.dtype, d.shape, r⟩ ⟨.int, d.shape, m⟩ none) := by
  have b1 := tropicalMix_class (tropPredef predef band P) d.dtype gs df kf cf ff z hzl (howOf cs)
    (howOf fhc) (numOf cs) (numOf fhc) (how_const d cs gs _ h3) (how_const d fhc gs _ h4)
  rw [vcol_col d cs, vcol_col d fhc, hb] at b1
  have hk : (Arg.arr k).val d.shape = .ok (V.arr k.data) := by simp [Arg.val, hs]
  simp only [calcBlendedRainTropicalMixed, hz, hk, bind, Except.bind, optVal_vcol d cs hc gs _ h3,
    optVal_vcol d fhc hf gs _ h4, pure, Except.pure]
  rw [← h1, ← h2, b1]
  by_cases hps : predef = "True" ∧ band = "S"
  · obtain ⟨l, rfl⟩ := hp hps
    rw [if_pos hps]
  · rw [if_neg hps]

/-- **C154 (the part that holds).** One ZDR number, one class and one rain type (or arrays of them, or none) beside arrays
of reflectivity and KDP: as if every gate had those values, when the ZDR number is a NumPy scalar or does not reach the
threshold, and the predefined S-band coefficients are not asked for. -/
theorem C154_tropical_partial (P : TropParams α) (predef band : String) (d k : NdArray α) (cs fhc : Option (Arg Int))
    (hd : d.WF) (hk : k.WF) (hs : d.shape = k.shape) (hc : FitsOpt d cs) (hf : FitsOpt d fhc) (kd : Kind) (z : α)
    (hp : ¬ (predef = "True" ∧ band = "S")) (h : kd = .np ∨ (P.threshZdr <=. z) = false) :
    returned (calcBlendedRainTropicalMixed P predef band d (.num kd z) (.arr k) cs fhc) =
      calcBlendedRainTropical P predef band (some (.arr d)) (some (.arr (filled .float d z))) (some (.arr k))
        (classOpt d cs) (classOpt d fhc) := by
  have hl : d.data.length = k.data.length := by rw [hd, hk, hs]
  obtain ⟨gs, h1, h2, h3, h4⟩ := exists_gates4 d.data k.data (ints d cs) (ints d fhc) hl (ints_length d hd cs hc)
    (ints_length d hd fhc hf)
  have ht : (tropPredef predef band P).threshZdr = P.threshZdr := by unfold tropPredef; dsimp only; split_ifs <;> rfl
  rw [tropical_gates_call P predef band d (filled .float d z) k cs fhc rfl hs hc hf
    (gs.map (fun g => (g.1, z, g.2.1, g.2.2.1, g.2.2.2))) (by simp [Function.comp_def, ← h1])
    (by simp [filled, ← h1, Function.comp_def]) (by simp [Function.comp_def, ← h2])
    (by simp [Function.comp_def, ← h3]) (by simp [Function.comp_def, ← h4])]
  have b2 := tropicalMix_gates (tropPredef predef band P) d.dtype cs.isSome fhc.isSome
    (gs.map (fun g => (g.1, z, g.2.1, g.2.2.1, g.2.2.2)))
  simp only [col_gates] at b2
  have b3 := tropicalMix_same (tropPredef predef band P) d.dtype cs.isSome fhc.isSome gs kd z (ht ▸ h)
  simp only [List.map_map, Function.comp_def] at b2
  rw [b2] at b3
  rw [tropical_mixed_call P predef band d k (.num kd z) (.num kd z) cs fhc rfl hs hc hf (fun h => absurd h hp) gs
    _ _ _ _ (by intro l hl; cases hl) h1 h2 h3 h4 _ _ b3]
  simp only [List.map_map, Function.comp_def]
  rfl

/-- **C154 (classes and rain types).** With ZDR an array, one class number or one rain-type number (of either kind) beside
arrays acts as that number in every gate, at every band and with every coefficient set. -/
theorem C154_tropical_class (P : TropParams α) (predef band : String) (d z k : NdArray α) (cs fhc : Option (Arg Int))
    (hs : SameShape d z k) (hc : FitsOpt d cs) (hf : FitsOpt d fhc) :
    returned (calcBlendedRainTropicalMixed P predef band d (.arr z) (.arr k) cs fhc) =
      calcBlendedRainTropical P predef band (some (.arr d)) (some (.arr z)) (some (.arr k))
        (classOpt d cs) (classOpt d fhc) := by
  obtain ⟨hl1, hl2⟩ := SameShape.lengths hs
  obtain ⟨gs, h1, h2, h3, h4⟩ := exists_gates4 d.data (z.data.zip k.data) (ints d cs) (ints d fhc)
    (by simp [← hl1, ← hl2]) (ints_length d hs.1 cs hc) (ints_length d hs.1 fhc hf)
  have hz : gs.map (·.2.1.1) = z.data := by
    have := congrArg (List.map Prod.fst) h2
    rw [List.map_fst_zip (by omega)] at this
    simpa [Function.comp_def] using this
  have hk : gs.map (·.2.1.2) = k.data := by
    have := congrArg (List.map Prod.snd) h2
    rw [List.map_snd_zip (by omega)] at this
    simpa [Function.comp_def] using this
  rw [tropical_gates_call P predef band d z k cs fhc hs.2.2.2.1 hs.2.2.2.2 hc hf
    (gs.map (fun g => (g.1, g.2.1.1, g.2.1.2, g.2.2.1, g.2.2.2))) (by simp [Function.comp_def, ← h1])
    (by simp [← hz, Function.comp_def]) (by simp [Function.comp_def, ← hk])
    (by simp [Function.comp_def, ← h3]) (by simp [Function.comp_def, ← h4])]
  have b2 := tropicalMix_gates (tropPredef predef band P) d.dtype cs.isSome fhc.isSome
    (gs.map (fun g => (g.1, g.2.1.1, g.2.1.2, g.2.2.1, g.2.2.2)))
  simp only [col_gates, List.map_map, Function.comp_def] at b2
  rw [tropical_mixed_call P predef band d k (.arr z) (.arr (gs.map (·.2.1.1))) cs fhc
    (by simp [Arg.val, hs.2.2.2.1, hz]) hs.2.2.2.2 hc hf (fun _ => ⟨_, rfl⟩) gs
    _ _ _ _ (by intro l hl; cases hl; exact ⟨_, rfl⟩) h1 hk h3 h4 _ _ b2]
  simp only [List.map_map, Function.comp_def]
  rfl

/-- **C154 (what happens otherwise).** A plain Python ZDR number: where reflectivity and KDP both reach their thresholds
the gate is treated as if the ZDR threshold were one the value does not reach (method 1 becomes 2), elsewhere as usual. -/
theorem C154_tropical_python (P : TropParams α) (predef band : String) (d k : NdArray α) (cs fhc : Option (Arg Int))
    (hd : d.WF) (hk : k.WF) (hs : d.shape = k.shape) (hc : FitsOpt d cs) (hf : FitsOpt d fhc) (z t : α)
    (hp : ¬ (predef = "True" ∧ band = "S")) (ht : (t <=. z) = false) :
    ∃ r m ru mu rt mt,
      calcBlendedRainTropicalMixed P predef band d (.num .py z) (.arr k) cs fhc = .ok (.arr r m none) ∧
      calcBlendedRainTropical P predef band (some (.arr d)) (some (.arr (filled .float d z))) (some (.arr k))
        (classOpt d cs) (classOpt d fhc) = .ok (some (.arr ru mu none)) ∧
      calcBlendedRainTropical {P with threshZdr := t} predef band (some (.arr d)) (some (.arr (filled .float d z)))
        (some (.arr k)) (classOpt d cs) (classOpt d fhc) = .ok (some (.arr rt mt none)) ∧
      r.shape = d.shape ∧ m.shape = d.shape ∧
      ∀ (i : Nat) (dv kv : α), d.data[i]? = some dv → k.data[i]? = some kv →
        if (P.threshKdp <=. kv) && (P.threshDz <=. dv) then r.data[i]? = rt.data[i]? ∧ m.data[i]? = mt.data[i]?
        else r.data[i]? = ru.data[i]? ∧ m.data[i]? = mu.data[i]? := by
  have hl : d.data.length = k.data.length := by rw [hd, hk, hs]
  obtain ⟨gs, h1, h2, h3, h4⟩ := exists_gates4 d.data k.data (ints d cs) (ints d fhc) hl (ints_length d hd cs hc)
    (ints_length d hd fhc hf)
  have call : ∀ Q : TropParams α, _ := fun Q =>
    tropical_gates_call Q predef band d (filled .float d z) k cs fhc rfl hs hc hf
    (gs.map (fun g => (g.1, z, g.2.1, g.2.2.1, g.2.2.2))) (by simp [Function.comp_def, ← h1])
    (by simp [filled, ← h1, Function.comp_def]) (by simp [Function.comp_def, ← h2])
    (by simp [Function.comp_def, ← h3]) (by simp [Function.comp_def, ← h4])
  have hq : tropPredef predef band {P with threshZdr := t} = {tropPredef predef band P with threshZdr := t} := by
    unfold tropPredef; dsimp only; split_ifs <;> rfl
  have e1 : (tropPredef predef band P).threshKdp = P.threshKdp := by unfold tropPredef; dsimp only; split_ifs <;> rfl
  have e2 : (tropPredef predef band P).threshDz = P.threshDz := by unfold tropPredef; dsimp only; split_ifs <;> rfl
  have b3 := tropicalMix_py (tropPredef predef band P) d.dtype cs.isSome fhc.isSome gs z t ht
  refine ⟨_, _, _, _, _, _, tropical_mixed_call P predef band d k (.num .py z) (.num .py z) cs fhc rfl hs hc hf
    (fun h => absurd h hp) gs _ _ _ _ (by intro l hl; cases hl) h1 h2 h3 h4 _ _ b3, call P, call _, rfl, rfl, ?_⟩
  intro i dv kv hdv hkv
  rw [← h1, List.getElem?_map] at hdv
  rw [← h2, List.getElem?_map] at hkv
  cases hg : gs[i]? with
  | none => simp [hg] at hdv
  | some g =>
    simp only [hg, Option.map_some, Option.some.injEq] at hdv hkv
    subst hdv hkv
    simp only [List.getElem?_map, hg, Option.map_some, hq, tropGatePy, e1, e2]
    split_ifs <;> simp

/-- **C154 (predefined coefficients).** With the default keywords (`predef='True'`, S band) a plain Python ZDR number
beside arrays raises TypeError: the coefficients are one-element tuples there. -/
theorem C154_default_raises (P : TropParams α) (d k : NdArray α) (hs : d.shape = k.shape) (cs fhc : Option (Arg Int))
    (hc : FitsOpt d cs) (hf : FitsOpt d fhc) (z : α) :
    calcBlendedRainTropicalMixed P "True" "S" d (.num .py z) (.arr k) cs fhc = .error .typeError := by
  have ho : ∀ a, FitsOpt d a → ∃ v, optVal d.shape a = .ok v := by
    rintro (_ | (⟨k, c⟩ | x)) h
    · exact ⟨_, rfl⟩
    · exact ⟨_, rfl⟩
    · refine ⟨some (.arr x.data), ?_⟩
      simp [optVal, Arg.val, (h x rfl).2]
  obtain ⟨c, hc⟩ := ho cs hc
  obtain ⟨f, hf⟩ := ho fhc hf
  simp [calcBlendedRainTropicalMixed, Arg.val, hs, hc, hf, bind, Except.bind] 
  simp [← hs, hc, hf]

/-- The full claim for the tropical function: one ZDR number is answered as the array filled with it. -/
def C154Full (α : Type) [PyFloat α] : Prop :=
  ∀ (P : TropParams α) (predef band : String) (d k : NdArray α), d.WF → k.WF → d.shape = k.shape →
    ∀ (kd : Kind) (z : α), returned (calcBlendedRainTropicalMixed P predef band d (.num kd z) (.arr k) none none) =
      calcBlendedRainTropical P predef band (some (.arr d)) (some (.arr (filled .float d z))) (some (.arr k)) none none

/-- **C154 is false** also where no exception is raised: at C band with the predefined coefficients, a gate of 45 dBZ and
2 deg/km with the Python number ZDR = 1 gets method 2 instead of 1. -/
theorem C154_full_false : ¬ C154Full QF := by
  intro h
  have e := congrArg methodsOf (h TropParams.default "True" "C" ⟨.float, [2], [45, 20]⟩ ⟨.float, [2], [2, 0]⟩
    (by decide) (by decide) rfl .py 1)
  revert e
  decide +kernel

/-! ## Concrete cases -/

example : methodsOf (returned (calcBlendedRainTropicalMixed (α := QF) TropParams.default "True" "C"
    ⟨.float, [2], [45, 20]⟩ (.num .py 1) (.arr ⟨.float, [2], [2, 0]⟩) (some (.num .py 1)) none)) = some [2, 3] := by
  decide +kernel
example : methodsOf (returned (calcBlendedRainTropicalMixed (α := QF) TropParams.default "True" "C"
    ⟨.float, [2], [45, 20]⟩ (.num .np 1) (.arr ⟨.float, [2], [2, 0]⟩) (some (.num .py 1)) (some (.num .py 2)))) =
    some [1, 3] := by decide +kernel
example : FitsOpt (⟨.float, [2], [45, 20]⟩ : NdArray QF) (some (.num .py 2)) ∧
    FitsOpt (⟨.float, [2], [45, 20]⟩ : NdArray QF) (some (.arr ⟨.int, [2], [1, 2]⟩)) := by
  constructor
  · intro x h; cases h
  · intro x h; cases h; exact ⟨rfl, rfl⟩

end Csu.Rain
