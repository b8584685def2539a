import Verif.Model.LiquidIceAny
import Verif.Props.LiquidIce2
import Verif.Props.Freezing
import Verif.QFloat
/-!
# Property C155: arguments of other shapes, and numbers beside arrays, in `calc_liquid_ice_mass`
-/
set_option linter.unusedSimpArgs false
namespace Csu.LiquidIce
open Csu PyFloat Csu.Common Csu.Rain
variable {α : Type} [PyFloat α]

section lists

theorem bcast_eq {β γ δ : Type} (f : β → γ → δ) (l : List β) (l' : List γ) (h : l.length = l'.length) :
    bcast f l l' = .ok (List.zipWith f l l') := by simp [bcast, h]

theorem bcast_map {ι β γ δ : Type} (f : β → γ → δ) (gs : List ι) (a : ι → β) (b : ι → γ) :
    bcast f (gs.map a) (gs.map b) = .ok (gs.map fun g => f (a g) (b g)) := by
  rw [bcast_eq _ _ _ (by simp), zipWith_map_map]

/-- one value on the right is used with every element on the left -/
theorem bcast_one {β γ δ : Type} (f : β → γ → δ) (l : List β) (y : γ) :
    bcast f l [y] = .ok (l.map fun x => f x y) := by
  unfold bcast
  split_ifs with h
  · match l, h with
    | [x], _ => rfl
  · match l, h with
    | [], _ => rfl
    | [x], h => simp at h
    | _ :: _ :: _, _ => rfl

theorem bcast_ok_left {β γ δ : Type} {f : β → γ → δ} {l : List β} {l' : List γ} {r : List δ}
    (h : bcast f l l' = .ok r) (hr : r.length = l.length) : l'.length = l.length ∨ l'.length = 1 := by
  unfold bcast at h
  split_ifs at h with e
  · exact .inl e.symm
  · split at h
    · cases h
      left; simpa using hr
    · right; rfl
    · cases h

theorem bcast_len {β γ δ : Type} {f : β → γ → δ} {l : List β} {l' : List γ} {r : List δ}
    (h : bcast f l l' = .ok r) : r.length = l.length ∨ (l.length = 1 ∧ r.length = l'.length) := by
  unfold bcast at h
  split_ifs at h with e
  · cases h; left; simp [e]
  · split at h
    · cases h; right; simp
    · cases h; left; simp
    · cases h

theorem maskCopyAny_map {ι β : Type} (gs : List ι) (m : ι → Bool) (a b : ι → β) :
    maskCopyAny (gs.map m) (gs.map a) (gs.map b) = .ok (gs.map fun g => if m g then a g else b g) := by
  simp [maskCopyAny, maskCopy_map]

theorem maskSetAny_map {ι β : Type} (gs : List ι) (m : ι → Bool) (v : β) (b : ι → β) :
    maskSetAny (gs.map m) v (gs.map b) = .ok (gs.map fun g => if m g then v else b g) := by
  simp [maskSetAny, maskSet_map]

end lists

/-- equal lengths: the body is the one of `Model/LiquidIce.lean` -/
theorem calcsAny_gates {ι : Type} (fitA fitB : Option α) (gs : List ι) (df rf tf : ι → α) :
    liquidIceCalcsAny (gs.map df) (gs.map rf) (gs.map tf) fitA fitB =
      liquidIceCalcs (gs.map df) (gs.map rf) (gs.map tf) fitA fitB := by
  rcases fitA with _ | a
  · simp [liquidIceCalcsAny, fitLine, liquidIceCalcs, calcZdp, calcZhZv, bcast_map, zipWith_map_map, maskSet_map, maskCopy_map,
      maskCopyAny_map, maskSetAny_map, Function.comp_def, bind, Except.bind, pure, Except.pure]
  · rcases fitB with _ | b
    · simp [liquidIceCalcsAny, fitLine, liquidIceCalcs, calcZdp, calcZhZv, bcast_map, zipWith_map_map, maskSet_map, maskCopy_map,
        maskCopyAny_map, maskSetAny_map, Function.comp_def, bind, Except.bind, pure, Except.pure]
    · simp [liquidIceCalcsAny, fitLine, liquidIceCalcs, calcZdp, calcZhZv, bcast_map, zipWith_map_map, maskSet_map, maskCopy_map,
        maskCopyAny_map, maskSetAny_map, Function.comp_def, bind, Except.bind, pure, Except.pure]

/-- a threshold of one element acts at every gate -/
theorem calcsAny_one {ι : Type} (fitA fitB : Option α) (gs : List ι) (df rf : ι → α) (t : α) :
    liquidIceCalcsAny (gs.map df) (gs.map rf) [t] fitA fitB =
      liquidIceCalcsAny (gs.map df) (gs.map rf) (gs.map fun _ => t) fitA fitB := by
  rcases fitA with _ | a
  · simp [-List.map_const', -List.map_const, liquidIceCalcsAny, fitLine, bcast_map, bcast_one, zipWith_map_map, maskSet_map, maskCopy_map,
      maskCopyAny_map, maskSetAny_map, Function.comp_def, bind, Except.bind, pure, Except.pure]
  · rcases fitB with _ | b
    · simp [-List.map_const', -List.map_const, liquidIceCalcsAny, fitLine, bcast_map, bcast_one, zipWith_map_map, maskSet_map, maskCopy_map,
        maskCopyAny_map, maskSetAny_map, Function.comp_def, bind, Except.bind, pure, Except.pure]
    · simp [-List.map_const', -List.map_const, liquidIceCalcsAny, fitLine, bcast_map, bcast_one, zipWith_map_map, maskSet_map, maskCopy_map,
        maskCopyAny_map, maskSetAny_map, Function.comp_def, bind, Except.bind, pure, Except.pure]

theorem ok_bind {β γ : Type} {x : Except PyErr β} {f : β → Except PyErr γ} {y : γ} (h : (x >>= f) = .ok y) :
    ∃ a, x = .ok a ∧ f a = .ok y := by
  cases x with
  | error e => cases h
  | ok a => exact ⟨a, rfl, h⟩

theorem maskCopyAny_ok {β : Type} {m : List Bool} {s t r : List β} (h : maskCopyAny m s t = .ok r) :
    m.length = t.length ∧ r.length = t.length := by
  unfold maskCopyAny at h
  split_ifs at h with e
  cases h
  simp [maskCopy, e.1 ▸ e.2, ← e.1, e.2]

theorem maskSetAny_ok {β : Type} {m : List Bool} {v : β} {t r : List β} (h : maskSetAny m v t = .ok r) :
    m.length = t.length := by
  unfold maskSetAny at h
  split_ifs at h with e
  exact e

/-- what the lengths must be for masses to come out -/
theorem calcsAny_ok {d r t : List α} {fitA fitB : Option α} {p : List α × List α}
    (h : liquidIceCalcsAny d r t fitA fitB = .ok p) :
    r.length = d.length ∧ (t.length = d.length ∨ t.length = 1) := by
  unfold liquidIceCalcsAny at h
  obtain ⟨zv, h1, h⟩ := ok_bind h
  obtain ⟨diff, h2, h⟩ := ok_bind h
  obtain ⟨fab, h3, h⟩ := ok_bind h
  obtain ⟨dz, h4, h⟩ := ok_bind h
  obtain ⟨zr, h5, h⟩ := ok_bind h
  obtain ⟨zi, h6, h⟩ := ok_bind h
  obtain ⟨ck, h7, h⟩ := ok_bind h
  dsimp only at h
  split_ifs at h with hc
  · obtain ⟨_, h8, _⟩ := ok_bind h
    cases h8
  obtain ⟨w1, h8, h⟩ := ok_bind h
  obtain ⟨w2, h9, h⟩ := ok_bind h
  obtain ⟨i1, h10, h⟩ := ok_bind h
  obtain ⟨w3, h11, h⟩ := ok_bind h
  have l1 := maskCopyAny_ok h8
  have l2 := maskCopyAny_ok h9
  have l4 := maskSetAny_ok h11
  simp only [List.length_map] at l1 l2 l4
  have hr : r.length = d.length := by omega
  refine ⟨hr, ?_⟩
  have hck : ck.length = d.length := l1.1
  have hzv : zv.length = d.length := by have := bcast_len h1; simp only [List.length_map] at this; omega
  have hdz := bcast_len h7
  have hdiff := bcast_len h2
  simp only [maskSet, List.length_zipWith, List.length_map, min_self] at hdz hdiff
  have hdz' := bcast_len h4
  simp only [maskSet, List.length_zipWith, List.length_map, min_self] at hdz'
  have hd : dz.length = d.length := by omega
  have := bcast_ok_left h7 (by simp [maskSet]; omega)
  simp only [maskSet, List.length_zipWith, List.length_map, min_self] at this
  omega

/-- one column given as an array of the right size is a map over the gates -/
theorem gates2 (d r : List α) (h : r.length = d.length) :
    ∃ gs : List (α × α), gs.map (·.1) = d ∧ gs.map (·.2) = r :=
  ⟨List.zip d r, by rw [List.map_fst_zip]; omega, by rw [List.map_snd_zip]; omega⟩

theorem calcsAny_same (fitA fitB : Option α) (d r t : List α) (hr : r.length = d.length) (ht : t.length = d.length) :
    liquidIceCalcsAny d r t fitA fitB = liquidIceCalcs d r t fitA fitB := by
  obtain ⟨gs, h1, h2, h3⟩ := exists_gates3 d r t hr.symm ht.symm
  rw [← h1, ← h2, ← h3, calcsAny_gates]

theorem calcsAny_fill (fitA fitB : Option α) (d r : List α) (t : α) (hr : r.length = d.length) :
    liquidIceCalcsAny d r [t] fitA fitB = liquidIceCalcsAny d r (List.replicate d.length t) fitA fitB := by
  obtain ⟨gs, h1, h2⟩ := gates2 d r hr
  rw [← h1, ← h2, calcsAny_one, List.length_map, List.map_const']

theorem thresh_length (z : List α) (h : α) : (getDeltaThresh z h).length = z.length := by
  simp [getDeltaThresh, maskCopy]

theorem thresh_fill (n : Nat) (x h t : α) (ht : getDeltaThresh [x] h = [t]) :
    getDeltaThresh (List.replicate n x) h = List.replicate n t := by
  simp only [getDeltaThresh, maskCopy, List.map_cons, List.map_nil, List.zip_cons_cons, List.zip_nil_right,
    List.zipWith_cons_cons, List.zipWith_nil_right, List.cons.injEq, and_true] at ht
  simp only [getDeltaThresh, maskCopy, List.map_replicate, List.zip_replicate', List.zipWith_replicate', ht]

theorem thresh_one (x h : α) : ∃ t, getDeltaThresh [x] h = [t] := ⟨_, rfl⟩

variable {argsort : List α → List Nat} {polyfit1 : List α → List α → α}

theorem hfrzAny_same (T : Option (List α)) (z : List α) (hfrz : Option α)
    (hT : ∀ t, T = some t → t.length = z.length) :
    hfrzAny argsort polyfit1 T z hfrz = getHfrz argsort polyfit1 T z hfrz := by
  rcases hfrz with _ | h <;> rcases T with _ | t
  · rfl
  · simp [hfrzAny, getHfrz, freezingAny, hT t rfl]
  · rfl
  · rfl

/-- **C155.** Nothing compares the shapes: arrays with as many gates as `dbz` are read in memory order, as if they had
been given in the shape of `dbz`. -/
theorem C155_same_size (d r z : NdArray α) (T : Option (NdArray α)) (hr : r.data.length = d.data.length)
    (hz : z.data.length = d.data.length) (hT : ∀ t, T = some t → t.data.length = d.data.length)
    (hfrz : Option α) (method : String) (fitA fitB : Option α) :
    calcLiquidIceMassAny argsort polyfit1 (.arr d) (.arr r) (.arr z) (T.map .arr) hfrz method fitA fitB =
      calcLiquidIceMassVal argsort polyfit1 (.arr d) (.arr ⟨r.dtype, d.shape, r.data⟩)
        (.arr ⟨z.dtype, d.shape, z.data⟩) (T.map fun t => .arr ⟨t.dtype, d.shape, t.data⟩) hfrz method fitA fitB := by
  have e : ∀ h, liquidIceCalcsAny d.data r.data (getDeltaThresh z.data h) fitA fitB =
      liquidIceCalcs d.data r.data (getDeltaThresh z.data h) fitA fitB := fun h =>
    calcsAny_same _ _ _ _ _ hr (by rw [thresh_length, hz])
  have eh := hfrzAny_same (argsort := argsort) (polyfit1 := polyfit1) (T.map (·.data)) z.data hfrz (by
    intro t ht
    rcases T with _ | t'
    · cases ht
    · cases ht; rw [hz]; exact hT t' rfl)
  rcases T with _ | t
  · simp only [Option.map_none] at eh
    simp only [calcLiquidIceMassAny, calcLiquidIceMassVal, calcLiquidIceMass, ravel, optRavel, Option.map_none, eh, e,
      bind, Except.bind, and_self, if_true]
    cases getHfrz argsort polyfit1 none z.data hfrz with
    | error _ => rfl
    | ok v => cases v with
      | none => rfl
      | some h =>
        dsimp only
        generalize liquidIceCalcs d.data r.data (getDeltaThresh z.data h) fitA fitB = q
        rcases q with _ | ⟨w, i⟩ <;> rfl
  · simp only [Option.map_some] at eh
    simp only [calcLiquidIceMassAny, calcLiquidIceMassVal, calcLiquidIceMass, ravel, optRavel, Option.map_some, eh, e,
      bind, Except.bind, and_self, if_true, Except.map]
    cases getHfrz argsort polyfit1 (some t.data) z.data hfrz with
    | error _ => rfl
    | ok v => cases v with
      | none => rfl
      | some h =>
        dsimp only
        generalize liquidIceCalcs d.data r.data (getDeltaThresh z.data h) fitA fitB = q
        rcases q with _ | ⟨w, i⟩ <;> rfl

/-- **C155**, numbers only: the call of `Model/LiquidIce.lean`, whatever the kind of number. -/
theorem C155_numbers (k1 k2 k3 k4 : Kind) (d r z : α) (T : Option α) (hfrz : Option α) (method : String)
    (fitA fitB : Option α) :
    calcLiquidIceMassAny argsort polyfit1 (.num k1 d) (.num k2 r) (.num k3 z) (T.map (.num k4)) hfrz method fitA fitB =
      calcLiquidIceMassVal argsort polyfit1 (.scalar .float d) (.scalar .float r) (.scalar .float z)
        (T.map (.scalar .float)) hfrz method fitA fitB := by
  have e : ∀ h, liquidIceCalcsAny [d] [r] (getDeltaThresh [z] h) fitA fitB =
      liquidIceCalcs [d] [r] (getDeltaThresh [z] h) fitA fitB := fun h =>
    calcsAny_same _ _ _ _ _ rfl (by rw [thresh_length]; rfl)
  have eh := hfrzAny_same (argsort := argsort) (polyfit1 := polyfit1) (T.map (fun t => [t])) [z] hfrz (by
    intro t ht
    rcases T with _ | t'
    · cases ht
    · cases ht; rfl)
  have hb : bshape [1] [1] = some [1] := rfl
  have hfe : ∀ h, fitError fitA fitB = true →
      liquidIceCalcs [d] [r] (getDeltaThresh [z] h) fitA fitB = .error .typeError := by
    intro h hf
    rcases fitA with _ | a
    · simp [fitError] at hf
    rcases fitB with _ | b
    · rfl
    · simp [fitError] at hf
  rcases T with _ | t
  · simp only [Option.map_none] at eh
    simp only [calcLiquidIceMassAny, calcLiquidIceMassVal, calcLiquidIceMass, wrapped, Option.map_none, eh, e, hb,
      bind, Except.bind, List.length_singleton, ne_eq, not_true_eq_false, if_false]
    cases getHfrz argsort polyfit1 none [z] hfrz with
    | error _ => rfl
    | ok v => cases v with
      | none => rfl
      | some h =>
        dsimp only
        split_ifs with hf
        · rw [hfe h hf]; rfl
        · generalize liquidIceCalcs [d] [r] (getDeltaThresh [z] h) fitA fitB = q
          rcases q with _ | ⟨_ | ⟨w, _ | ⟨_, _⟩⟩, _ | ⟨i, _ | ⟨_, _⟩⟩⟩ <;> rfl
  · simp only [Option.map_some] at eh
    simp only [calcLiquidIceMassAny, calcLiquidIceMassVal, calcLiquidIceMass, wrapped, Option.map_some, eh, e, hb,
      bind, Except.bind, List.length_singleton, ne_eq, not_true_eq_false, if_false]
    cases getHfrz argsort polyfit1 (some [t]) [z] hfrz with
    | error _ => rfl
    | ok v => cases v with
      | none => rfl
      | some h =>
        dsimp only
        split_ifs with hf
        · rw [hfe h hf]; rfl
        · generalize liquidIceCalcs [d] [r] (getDeltaThresh [z] h) fitA fitB = q
          rcases q with _ | ⟨_ | ⟨w, _ | ⟨_, _⟩⟩, _ | ⟨i, _ | ⟨_, _⟩⟩⟩ <;> rfl

/-- how many values an argument holds -/
def count : Arg α → Nat
  | .num _ _ => 1
  | .arr a => a.data.length

/-- a plain Python number -/
def IsPython : Arg α → Prop
  | .num .py _ => True
  | _ => False

theorem ravel_arr (a : NdArray α) : ravel (.arr a) = .ok a.data := rfl

theorem ravel_python {a : Arg α} (h : IsPython a) : ravel a = .error .attributeError := by
  rcases a with ⟨_ | _, x⟩ | a
  · rfl
  · exact h.elim
  · exact h.elim

theorem ravel_ok {a : Arg α} (h : ¬ IsPython a) : ∃ l, ravel a = .ok l ∧ l.length = count a := by
  rcases a with ⟨_ | _, x⟩ | a
  · exact (h trivial).elim
  · exact ⟨_, rfl, rfl⟩
  · exact ⟨_, rfl, rfl⟩

/-- **C155**, a plain Python number for ZDR, altitude or temperature beside an array of reflectivity raises
AttributeError (also when the temperature is not needed). -/
theorem C155_plain_number (d : NdArray α) (zdr z : Arg α) (T : Option (Arg α)) (hfrz : Option α) (method : String)
    (fitA fitB : Option α) (h : IsPython zdr ∨ IsPython z ∨ ∃ t, T = some t ∧ IsPython t) :
    calcLiquidIceMassAny argsort polyfit1 (.arr d) zdr z T hfrz method fitA fitB = .error .attributeError := by
  by_cases h1 : IsPython zdr
  · simp only [calcLiquidIceMassAny, ravel_python h1, bind, Except.bind]
  obtain ⟨r, e1, -⟩ := ravel_ok h1
  by_cases h2 : IsPython z
  · simp only [calcLiquidIceMassAny, e1, ravel_python h2, bind, Except.bind]
  obtain ⟨hz, e2, -⟩ := ravel_ok h2
  obtain ⟨t, rfl, h3⟩ := (h.resolve_left h1).resolve_left h2
  simp only [calcLiquidIceMassAny, e1, e2, optRavel, ravel_python h3, bind, Except.bind, Except.map]

/-- **C155**, what a call that returns masses looked like: no plain Python numbers, ZDR with as many values as the
reflectivity, one altitude or as many as the reflectivity; the masses come in the shape of the reflectivity. -/
theorem C155_returns (d : NdArray α) (zdr z : Arg α) (T : Option (Arg α)) (hfrz : Option α) (method : String)
    (fitA fitB : Option α) (p : PyVal α × PyVal α)
    (h : calcLiquidIceMassAny argsort polyfit1 (.arr d) zdr z T hfrz method fitA fitB = .ok (some p)) :
    ¬ IsPython zdr ∧ ¬ IsPython z ∧ (∀ t, T = some t → ¬ IsPython t) ∧ count zdr = d.data.length ∧
      (count z = d.data.length ∨ count z = 1) ∧
      ∃ w i : List α, p = (.arr ⟨.float, d.shape, w⟩, .arr ⟨.float, d.shape, i⟩) := by
  have h1 : ¬ IsPython zdr := fun h' => by rw [C155_plain_number d zdr z T _ _ _ _ (.inl h')] at h; cases h
  have h2 : ¬ IsPython z := fun h' => by rw [C155_plain_number d zdr z T _ _ _ _ (.inr (.inl h'))] at h; cases h
  have h3 : ∀ t, T = some t → ¬ IsPython t := fun t ht h' => by
    rw [C155_plain_number d zdr z T _ _ _ _ (.inr (.inr ⟨t, ht, h'⟩))] at h; cases h
  obtain ⟨r, e1, l1⟩ := ravel_ok h1
  obtain ⟨hz, e2, l2⟩ := ravel_ok h2
  simp only [calcLiquidIceMassAny, e1, e2] at h
  obtain ⟨_, e, h⟩ := ok_bind h
  cases e
  obtain ⟨_, e, h⟩ := ok_bind h
  cases e
  obtain ⟨t, e, h⟩ := ok_bind h
  obtain ⟨lvl, e', h⟩ := ok_bind h
  rcases lvl with _ | lvl
  · cases h
  obtain ⟨⟨w, i⟩, e'', h⟩ := ok_bind h
  cases h
  have := calcsAny_ok e''
  rw [thresh_length] at this
  exact ⟨h1, h2, h3, by omega, by omega, w, i, rfl⟩

/-- **C155**, one altitude (a NumPy number, or an array of one element of any shape) with the freezing level given, or
no temperatures: the same as an array filled with it. -/
theorem C155_one_altitude_partial (d r : NdArray α) (z : Arg α) (x : α) (hz : z = .num .np x ∨ ∃ a, z = .arr a ∧ a.data = [x])
    (T : Option (Arg α)) (hfrz : Option α) (hT : T = none ∨ hfrz.isSome) (hr : r.data.length = d.data.length)
    (method : String) (fitA fitB : Option α) :
    calcLiquidIceMassAny argsort polyfit1 (.arr d) (.arr r) z T hfrz method fitA fitB =
      calcLiquidIceMassAny argsort polyfit1 (.arr d) (.arr r)
        (.arr ⟨.float, d.shape, List.replicate d.data.length x⟩) T hfrz method fitA fitB := by
  have e1 : ravel z = .ok [x] := by
    rcases hz with rfl | ⟨a, rfl, ha⟩
    · rfl
    · simp [ravel, ha]
  have key : ∀ lvl, liquidIceCalcsAny d.data r.data (getDeltaThresh [x] lvl) fitA fitB =
      liquidIceCalcsAny d.data r.data (getDeltaThresh (List.replicate d.data.length x) lvl) fitA fitB := by
    intro lvl
    obtain ⟨t, ht⟩ := thresh_one x lvl
    rw [thresh_fill _ _ _ _ ht, ht, calcsAny_fill _ _ _ _ _ hr]
  have hh : ∀ t, (T = none → t = none) → hfrzAny argsort polyfit1 t [x] hfrz =
      hfrzAny argsort polyfit1 t (List.replicate d.data.length x) hfrz := by
    intro t ht
    rcases hfrz with _ | h
    · rcases hT with h | h
      · rw [ht h]; rfl
      · cases h
    · rfl
  simp only [calcLiquidIceMassAny, e1, bind, Except.bind]
  rcases T with _ | t
  · simp only [optRavel, hh none (fun _ => rfl), key, ravel_arr]
  · simp only [optRavel, Except.map, ravel_arr]
    cases ravel t with
    | error _ => rfl
    | ok l => simp only [hh (some l) (by simp), key]

theorem bshapeRev_length {s s' t : List Nat} (h : bshapeRev s s' = some t) : t.length = max s.length s'.length := by
  induction s generalizing s' t with
  | nil => simp only [bshapeRev, Option.some.injEq] at h; subst h; simp
  | cons a s ih =>
    cases s' with
    | nil => simp only [bshapeRev, Option.some.injEq] at h; subst h; simp
    | cons b s' =>
      simp only [bshapeRev] at h
      split at h
      · rename_i c u _ e
        cases h
        have := ih e
        simp only [List.length_cons]
        omega
      · cases h

theorem bshape_length {s s' t : List Nat} (h : bshape s s' = some t) : t.length = max s.length s'.length := by
  unfold bshape at h
  rw [Option.map_eq_some_iff] at h
  obtain ⟨u, e, rfl⟩ := h
  simpa using bshapeRev_length e

/-- two shapes fit together: counted from the last axis, the sizes are equal or one of them is 1 -/
def Fit (s s' : List Nat) : Prop :=
  ∀ (i a b : Nat), s.reverse[i]? = some a → s'.reverse[i]? = some b → a = b ∨ a = 1 ∨ b = 1

theorem bshapeRev_isSome (s s' : List Nat) : (bshapeRev s s').isSome ↔
    ∀ (i a b : Nat), s[i]? = some a → s'[i]? = some b → a = b ∨ a = 1 ∨ b = 1 := by
  induction s generalizing s' with
  | nil => simp [bshapeRev]
  | cons a s ih =>
    cases s' with
    | nil => simp [bshapeRev]
    | cons b s' =>
      have hb : (bdim a b).isSome ↔ (a = b ∨ a = 1 ∨ b = 1) := by
        unfold bdim; split_ifs <;> simp_all
      have e : (bshapeRev (a :: s) (b :: s')).isSome ↔ (bdim a b).isSome ∧ (bshapeRev s s').isSome := by
        simp only [bshapeRev]
        cases bdim a b <;> cases bshapeRev s s' <;> simp
      rw [e, hb, ih]
      constructor
      · rintro ⟨h1, h2⟩ i x y hx hy
        cases i with
        | zero => simp at hx hy; subst hx hy; exact h1
        | succ i => exact h2 i x y (by simpa using hx) (by simpa using hy)
      · intro h
        exact ⟨h 0 a b rfl rfl, fun i x y hx hy => h (i + 1) x y (by simpa using hx) (by simpa using hy)⟩

theorem bshape_isSome (s s' : List Nat) : (bshape s s').isSome ↔ Fit s s' := by
  rw [bshape, Option.isSome_map, bshapeRev_isSome]; rfl

/-- the shape of an argument wrapped in one more axis -/
def wrappedShape : Arg α → List Nat
  | .num _ _ => [1]
  | .arr a => 1 :: a.shape

/-- **C155**, the exception for a reflectivity number with an array, freezing level and rain line known: IndexError when
the wrapped shapes fit together, ValueError otherwise. -/
theorem C155_number_dbz_exception (k : Kind) (d : α) (zdr z : Arg α) (T : Option (Arg α)) (hfrz : α) (method : String)
    (fitA fitB : Option α) (hf : fitA = none ∨ fitB.isSome)
    (h : ∃ a : NdArray α, (zdr = .arr a ∨ z = .arr a) ∧ a.shape ≠ []) :
    (Fit (wrappedShape zdr) (wrappedShape z) →
      calcLiquidIceMassAny argsort polyfit1 (.num k d) zdr z T (some hfrz) method fitA fitB = .error .indexError) ∧
    (¬ Fit (wrappedShape zdr) (wrappedShape z) →
      calcLiquidIceMassAny argsort polyfit1 (.num k d) zdr z T (some hfrz) method fitA fitB = .error .valueError) := by
  have hw : ∀ a : Arg α, (wrapped a).1 = wrappedShape a := fun a => by cases a <;> rfl
  have hfe : fitError fitA fitB = false := by
    rcases hf with rfl | hf
    · rfl
    · cases fitB
      · cases hf
      · simp [fitError]
  have hl : ∀ sh, bshape (wrappedShape zdr) (wrappedShape z) = some sh → sh.length ≠ 1 := by
    intro sh hs
    have hb := bshape_length hs
    obtain ⟨a, rfl | rfl, hs'⟩ := h
    · have := List.length_pos_of_ne_nil hs'
      simp only [wrappedShape, List.length_cons] at hb
      omega
    · have := List.length_pos_of_ne_nil hs'
      simp only [wrappedShape, List.length_cons] at hb
      omega
  have red : calcLiquidIceMassAny argsort polyfit1 (.num k d) zdr z T (some hfrz) method fitA fitB =
      match bshape (wrappedShape zdr) (wrappedShape z) with
      | none => .error .valueError
      | some _ => .error .indexError := by
    simp only [calcLiquidIceMassAny, hfrzAny, bind, Except.bind, hfe, hw]
    cases hb : bshape (wrappedShape zdr) (wrappedShape z) with
    | none => rfl
    | some sh => dsimp only; simp only [hl sh hb, ne_eq, not_false_eq_true, if_true]; rfl
  rw [red]
  constructor <;> intro hfit
  · rw [← bshape_isSome, Option.isSome_iff_exists] at hfit
    obtain ⟨sh, e⟩ := hfit
    rw [e]
  · rw [← bshape_isSome, Option.not_isSome_iff_eq_none] at hfit
    rw [hfit]

/-- **C155**, a reflectivity number with an array (of one or more axes) of ZDR or altitude never gives masses. -/
theorem C155_number_dbz (k : Kind) (d : α) (zdr z : Arg α) (T : Option (Arg α)) (hfrz : Option α) (method : String)
    (fitA fitB : Option α) (h : ∃ a : NdArray α, (zdr = .arr a ∨ z = .arr a) ∧ a.shape ≠ []) (p : PyVal α × PyVal α) :
    calcLiquidIceMassAny argsort polyfit1 (.num k d) zdr z T hfrz method fitA fitB ≠ .ok (some p) := by
  intro he
  unfold calcLiquidIceMassAny at he
  dsimp only at he
  obtain ⟨lvl, -, he⟩ := ok_bind he
  rcases lvl with _ | lvl
  · cases he
  dsimp only at he
  split_ifs at he with hf
  · cases he
  cases hb : bshape (wrapped zdr).1 (wrapped z).1 with
  | none => rw [hb] at he; cases he
  | some sh =>
    rw [hb] at he
    have hl := bshape_length hb
    have : sh.length ≠ 1 := by
      obtain ⟨a, rfl | rfl, hs⟩ := h
      · have := List.length_pos_of_ne_nil hs
        simp only [wrapped, List.length_cons] at hl
        omega
      · have := List.length_pos_of_ne_nil hs
        simp only [wrapped, List.length_cons] at hl
        omega
    dsimp only at he
    rw [if_pos this] at he
    cases he

/-- **C155**, a NumPy number for ZDR beside an array of other than one gate: IndexError, once the freezing level and the
rain line are known and the altitudes fit. -/
theorem C155_numpy_zdr (d z : NdArray α) (r h : α) (hd : d.data.length ≠ 1)
    (hz : z.data.length = d.data.length ∨ z.data.length = 1) (method : String) (fitA fitB : Option α)
    (hf : fitA = none ∨ fitB.isSome) (T : Option (NdArray α)) :
    calcLiquidIceMassAny argsort polyfit1 (.arr d) (.num .np r) (.arr z) (T.map .arr) (some h) method fitA fitB =
      .error .indexError := by
  have hfl : ∃ ab, fitLine fitA fitB = .ok ab := by
    rcases fitA with _ | a
    · exact ⟨_, rfl⟩
    · rcases fitB with _ | b
      · simp at hf
      · exact ⟨_, rfl⟩
  obtain ⟨⟨a, b⟩, hab⟩ := hfl
  have main : ∀ (gs : List (α × α)) (hg : gs.length ≠ 1) (t : List α), (t = gs.map (·.2) ∨ ∃ x, t = [x]) →
      liquidIceCalcsAny (gs.map (·.1)) [r] t fitA fitB = .error .indexError := by
    intro gs hg t ht
    rcases ht with rfl | ⟨x, rfl⟩
    · simp [liquidIceCalcsAny, hab, bcast_one, bcast_map, zipWith_map_map, maskSet_map, maskCopy_map, maskCopyAny_map,
        Function.comp_def, bind, Except.bind, pure, Except.pure, maskSetAny, Ne.symm hg]
    · simp [liquidIceCalcsAny, hab, bcast_one, bcast_map, zipWith_map_map, maskSet_map, maskCopy_map, maskCopyAny_map,
        Function.comp_def, bind, Except.bind, pure, Except.pure, maskSetAny, Ne.symm hg]
  have key : liquidIceCalcsAny d.data [r] (getDeltaThresh z.data h) fitA fitB = .error .indexError := by
    rcases hz with hz | hz
    · obtain ⟨gs, h1, h2⟩ := gates2 d.data (getDeltaThresh z.data h) (by rw [thresh_length, hz])
      have hl : gs.length ≠ 1 := by rw [← List.length_map (f := (·.1)) (as := gs), h1]; exact hd
      rw [← h1, main gs hl _ (.inl h2.symm)]
    · obtain ⟨x, hx⟩ := List.length_eq_one_iff.mp hz
      obtain ⟨t, ht⟩ := thresh_one x h
      obtain ⟨gs, h1, h2⟩ := gates2 d.data d.data rfl
      have hl : gs.length ≠ 1 := by rw [← List.length_map (f := (·.1)) (as := gs), h1]; exact hd
      rw [hx, ht, ← h1, main gs hl _ (.inr ⟨t, rfl⟩)]
  have hT : ∃ t, optRavel (T.map Arg.arr) = .ok t := by
    rcases T with _ | t <;> exact ⟨_, rfl⟩
  obtain ⟨t, ht⟩ := hT
  simp only [calcLiquidIceMassAny, ravel, ht, hfrzAny, key, bind, Except.bind]

/-- two lengths that NumPy broadcasts against each other -/
def LenFit (a b : Nat) : Prop := a = b ∨ a = 1 ∨ b = 1

instance (a b : Nat) : Decidable (LenFit a b) := inferInstanceAs (Decidable (_ ∨ _ ∨ _))

theorem except_ok {ε β γ : Type} (x : β) (f : β → Except ε γ) : (Except.ok x >>= f) = f x := rfl

theorem bcast_fits {β γ δ : Type} (f : β → γ → δ) (l : List β) (l' : List γ) (h : LenFit l.length l'.length) :
    ∃ r, bcast f l l' = .ok r ∧ r.length = if l.length = 1 then l'.length else l.length := by
  by_cases he : l.length = l'.length
  · refine ⟨_, bcast_eq f l l' he, ?_⟩
    rw [List.length_zipWith]; split_ifs <;> omega
  · by_cases h1 : l.length = 1
    · obtain ⟨x, rfl⟩ := List.length_eq_one_iff.mp h1
      refine ⟨l'.map (f x), by simp only [bcast, if_neg he], by simp⟩
    · have h2 : l'.length = 1 := (h.resolve_left he).resolve_left h1
      obtain ⟨y, rfl⟩ := List.length_eq_one_iff.mp h2
      exact ⟨_, bcast_one f l y, by simp [h1]⟩

theorem bcast_unfit {β γ δ : Type} (f : β → γ → δ) (l : List β) (l' : List γ) (h : ¬ LenFit l.length l'.length) :
    bcast f l l' = .error .valueError := by
  unfold LenFit at h
  push Not at h
  unfold bcast
  rw [if_neg h.1]
  split
  · simp at h
  · simp at h
  · rfl

/-- the calculation with arrays of any lengths: its exception -/
theorem calcsAny_exception (d r t : List α) (fitA fitB : Option α) (hf : fitA = none ∨ fitB.isSome)
    (hbad : ¬ (r.length = d.length ∧ (t.length = d.length ∨ t.length = 1))) :
    liquidIceCalcsAny d r t fitA fitB =
      if LenFit d.length r.length ∧ LenFit d.length t.length ∧ LenFit r.length t.length then .error .indexError
      else .error .valueError := by
  have hfl : ∃ ab, fitLine fitA fitB = .ok ab := by
    rcases fitA with _ | a
    · exact ⟨_, rfl⟩
    · rcases fitB with _ | b
      · simp at hf
      · exact ⟨_, rfl⟩
  obtain ⟨⟨a, b⟩, hab⟩ := hfl
  unfold liquidIceCalcsAny
  dsimp only
  by_cases h1 : LenFit d.length r.length
  swap
  · rw [bcast_unfit _ _ _ (by simpa using h1), if_neg (fun h => h1 h.1)]
    rfl
  obtain ⟨zv, e1, l1⟩ := bcast_fits (fun h r => h / linearize r) (d.map linearize) r (by simpa using h1)
  rw [List.length_map] at l1
  rw [e1, except_ok]
  obtain ⟨df, e2, l2⟩ := bcast_fits (· - ·) (d.map linearize) zv (by
    unfold LenFit at *; rw [List.length_map, l1]; split_ifs <;> omega)
  rw [List.length_map] at l2
  rw [e2, except_ok, hab, except_ok]
  generalize hx : (List.map (fun x => a * x + b) (List.map (fun x => 10 * log10 x) (maskSet (List.map (· <=. 0) df) 0.000000000001 df))) = est
  have lx : est.length = df.length := by rw [← hx]; simp [maskSet]
  obtain ⟨dz, e3, l3⟩ := bcast_fits (· - ·) d est (by
    unfold LenFit at *; rw [lx, l2, l1]; split_ifs <;> omega)
  rw [e3, except_ok]
  generalize hy : maskSet (List.map (· <. 0) dz) 0 dz = dl
  have ly : dl.length = dz.length := by rw [← hy]; simp [maskSet]
  obtain ⟨zr, e4, l4⟩ := bcast_fits (fun h f => h * (1 - f)) (d.map linearize) (dl.map fun x => 1 - (10 : α) ^ (-0.1 * x)) (by
    unfold LenFit at *; rw [List.length_map, List.length_map, ly, l3, lx, l2, l1]; split_ifs <;> omega)
  rw [List.length_map, List.length_map] at l4
  rw [e4, except_ok]
  obtain ⟨zi, e5, l5⟩ := bcast_fits (· - ·) (d.map linearize) zr (by
    unfold LenFit at *; rw [List.length_map, l4, ly, l3, lx, l2, l1]; split_ifs <;> omega)
  rw [e5, except_ok]
  have ldl : dl.length = if d.length = 1 then r.length else d.length := by
    rw [ly, l3, lx, l2, l1]; split_ifs <;> rfl
  by_cases h2 : LenFit dl.length t.length
  swap
  · rw [bcast_unfit _ _ _ h2, if_neg]
    · rfl
    · intro h
      apply h2
      rw [ldl]
      split_ifs
      · exact h.2.2
      · exact h.2.1
  have hfit : LenFit d.length t.length ∧ LenFit r.length t.length := by
    unfold LenFit at *; rw [ldl] at h2; split_ifs at h2 <;> omega
  rw [if_pos ⟨h1, hfit⟩]
  obtain ⟨ck, e6, l6⟩ := bcast_fits (· - ·) dl t h2
  rw [e6, except_ok]
  by_cases h3 : (ck.map (· <. 0)).length ≠ (d.map linearize).length ∨ (ck.map (· <. 0)).length ≠ zv.length
  · rw [if_pos h3]; rfl
  · rw [if_neg h3]
    push Not at h3
    rw [List.length_map, List.length_map] at h3
    have hrd : r.length = 1 ∧ d.length ≠ 1 := by
      unfold LenFit at *
      obtain ⟨q1, q2⟩ := h3
      rw [l6, ldl] at q1
      rw [ldl] at h2
      rw [l1] at q2
      split_ifs at q1 q2 h2 <;> omega
    have m1 : ∀ (mk : List Bool) (s w : List α), mk.length = d.length → s.length = d.length → w.length = d.length →
        ∃ w', maskCopyAny mk s w = .ok w' ∧ w'.length = d.length := by
      intro mk s w a1 a2 a3
      exact ⟨_, by rw [maskCopyAny, if_pos ⟨by omega, by omega⟩], by simp [maskCopy]; omega⟩
    have lck : ck.length = d.length := h3.1
    have lzv : zv.length = d.length := by rw [l1, if_neg hrd.2]
    have lzr : zr.length = d.length := by rw [l4, if_neg hrd.2]
    have lzi : zi.length = d.length := by rw [l5, List.length_map, if_neg hrd.2]
    obtain ⟨w1, f1, g1⟩ := m1 (ck.map (· <. 0)) (List.zipWith (fun h v => 0.70 * (10 : α) ^ (-3 : α) * h ^ (0.886 : α) *
      (h / v) ^ (-4.159 : α)) (d.map linearize) zv) (d.map (· * 0)) (by simp [lck]) (by simp [lzv]) (by simp)
    obtain ⟨w2, f2, g2⟩ := m1 (ck.map (· >=. 0)) (zr.map (fun h => 3.44 * (10 : α) ^ (-3 : α) * h ^ (4 / 7 : α))) w1
      (by simp [lck]) (by simp [lzr]) g1
    obtain ⟨w3, f3, g3⟩ := m1 (ck.map (· >=. 0)) (zi.map (fun h => 1000 * pi * 917 * (4 * (10 : α) ^ (6 : α)) ^ (3 / 7 : α) *
      ((5.28 * (10 : α) ^ (-18 : α) * h) / 720) ^ (4 / 7 : α))) (d.map (· * 0)) (by simp [lck]) (by simp [lzi]) (by simp)
    have f4 : maskSetAny (r.map (· <. 0)) 0 w2 = .error .indexError := by
      rw [maskSetAny, if_neg (by rw [List.length_map]; omega)]
    show (maskCopyAny _ _ _ >>= _) = _
    rw [f1, except_ok, f2, except_ok, f3, except_ok, f4]
    rfl

/-- **C155**, arrays whose sizes do not match, with a freezing level given and a usable rain line: an IndexError if any two of
the three sizes are equal or 1 (NumPy broadcasts them, but the masks do not fit), and a ValueError otherwise. -/
theorem C155_array_exception (d r z : NdArray α) (T : Option (NdArray α)) (h : α) (method : String) (fitA fitB : Option α)
    (hf : fitA = none ∨ fitB.isSome)
    (hbad : ¬ (r.data.length = d.data.length ∧ (z.data.length = d.data.length ∨ z.data.length = 1))) :
    (LenFit d.data.length r.data.length ∧ LenFit d.data.length z.data.length ∧ LenFit r.data.length z.data.length →
      calcLiquidIceMassAny argsort polyfit1 (.arr d) (.arr r) (.arr z) (T.map .arr) (some h) method fitA fitB =
        .error .indexError) ∧
    (¬ (LenFit d.data.length r.data.length ∧ LenFit d.data.length z.data.length ∧ LenFit r.data.length z.data.length) →
      calcLiquidIceMassAny argsort polyfit1 (.arr d) (.arr r) (.arr z) (T.map .arr) (some h) method fitA fitB =
        .error .valueError) := by
  have key := calcsAny_exception d.data r.data (getDeltaThresh z.data h) fitA fitB hf (by rw [thresh_length]; exact hbad)
  rw [thresh_length] at key
  have hT : ∃ t, optRavel (T.map Arg.arr) = .ok t := by
    rcases T with _ | t <;> exact ⟨_, rfl⟩
  obtain ⟨t, ht⟩ := hT
  constructor
  · intro hfit
    rw [if_pos hfit] at key
    simp only [calcLiquidIceMassAny, ravel_arr, ht, hfrzAny, key, bind, Except.bind]
  · intro hfit
    rw [if_neg hfit] at key
    simp only [calcLiquidIceMassAny, ravel_arr, ht, hfrzAny, key, bind, Except.bind]

/-- both cases of `C155_array_exception` occur: 3, 3 and 2 values; 1, 3 and 3 values -/
example : ¬ (3 = 3 ∧ (2 = 3 ∨ 2 = 1)) ∧ ¬ (LenFit 3 3 ∧ LenFit 3 2 ∧ LenFit 3 2) ∧
    ¬ (3 = 1 ∧ (3 = 1 ∨ 3 = 1)) ∧ (LenFit 1 3 ∧ LenFit 1 3 ∧ LenFit 3 3) := by
  unfold LenFit; omega

/-- the order of the altitudes is an order of all of them -/
def Orders (argsort : List α → List Nat) (z : List α) : Prop := (argsort z).Perm (List.range z.length)

/-- **C155**, temperatures that are fewer than the altitudes, with no freezing level given: IndexError. -/
theorem C155_few_temperatures (d : NdArray α) (r : NdArray α) (z T : Arg α) (hz : ¬ IsPython z) (hT : ¬ IsPython T)
    (hlt : count T < count z) (ho : ∀ l, ravel z = .ok l → Orders argsort l) (method : String) (fitA fitB : Option α) :
    calcLiquidIceMassAny argsort polyfit1 (.arr d) (.arr r) z (some T) none method fitA fitB = .error .indexError := by
  obtain ⟨lz, e2, l2⟩ := ravel_ok hz
  obtain ⟨lt, e3, l3⟩ := ravel_ok hT
  have hmem : lt.length ∈ argsort lz := (ho lz e2).mem_iff.mpr (List.mem_range.mpr (by omega))
  have hs : hfrzAny argsort polyfit1 (some lt) lz none = .error .indexError := by
    have hne : lt.length ≠ lz.length := by omega
    have hany : (argsort lz).any (fun i => decide (lt.length ≤ i)) = true :=
      List.any_eq_true.mpr ⟨_, hmem, by simp⟩
    simp only [hfrzAny, freezingAny, if_neg hne, sounding, hany, if_true]
  simp only [calcLiquidIceMassAny, ravel_arr, e2, optRavel, e3, Except.map, hs, bind, Except.bind]

/-- C155, full statement about numbers: a number is that number at every gate. -/
def C155Full (α : Type) [PyFloat α] : Prop :=
  ∀ (argsort : List α → List Nat) (polyfit1 : List α → List α → α) (d : NdArray α) (zdr z : Arg α) (hfrz : Option α)
    (method : String) (fitA fitB : Option α), d.WF →
    calcLiquidIceMassAny argsort polyfit1 (.arr d) zdr z none hfrz method fitA fitB =
      calcLiquidIceMassAny argsort polyfit1 (.arr d) (filled d.data.length d.shape zdr) (filled d.data.length d.shape z)
        none hfrz method fitA fitB
where
  filled (n : Nat) (shape : List Nat) : Arg α → Arg α
    | .num _ x => .arr ⟨.float, shape, List.replicate n x⟩
    | .arr a => .arr a

/-- **C155 is false of the code**: ZDR given as a number beside two gates of reflectivity. -/
theorem C155_full_false : ¬ C155Full α := by
  intro hall
  have h := hall (fun _ => []) (fun _ _ => 0) ⟨.float, [2], [30, 40]⟩ (.num .py 1) (.arr ⟨.float, [2], [1, 2]⟩)
    (some 4) "cifelli" none none rfl
  rw [C155_plain_number _ (.num .py 1) _ _ _ _ _ _ (.inl (by exact trivial))] at h
  have h2 := C155_same_size (argsort := fun _ => []) (polyfit1 := fun _ _ => 0) (α := α) ⟨.float, [2], [30, 40]⟩
    ⟨.float, [2], [1, 1]⟩ ⟨.float, [2], [1, 2]⟩ none rfl rfl (by simp) (some 4) "cifelli" none none
  simp only [C155Full.filled, List.length_cons, List.length_nil, List.replicate] at h
  simp only [Option.map_none] at h2
  rw [h2] at h
  simp [calcLiquidIceMassVal, calcLiquidIceMass, getHfrz, liquidIceCalcs, bind, Except.bind, pure, Except.pure] at h

/-- C155, full statement about temperatures: as many as altitudes, or an exception. -/
def C155SoundingFull (α : Type) [PyFloat α] : Prop :=
  ∀ (argsort : List α → List Nat) (polyfit1 : List α → List α → α) (d r z t : NdArray α) (method : String)
    (fitA fitB : Option α), Orders argsort z.data → r.data.length = d.data.length → z.data.length = d.data.length →
    t.data.length ≠ z.data.length →
    ∃ e, calcLiquidIceMassAny argsort polyfit1 (.arr d) (.arr r) (.arr z) (some (.arr t)) none method fitA fitB = .error e

theorem calcs_returns (d r t : List α) (fitA fitB : Option α) (hr : r.length = d.length) (ht : t.length = d.length)
    (hf : fitA = none ∨ fitB.isSome) : ∃ w i, liquidIceCalcsAny d r t fitA fitB = .ok (w, i) := by
  rw [calcsAny_same _ _ _ _ _ hr ht]
  rcases fitA with _ | a
  · exact ⟨_, _, rfl⟩
  · rcases fitB with _ | b
    · simp at hf
    · exact ⟨_, _, rfl⟩

/-- **C155, temperatures: false of the code**: three temperatures for two gates give masses (the freezing level comes
from the first two, the third is ignored but for its sign). -/
theorem C155_sounding_full_false : ¬ C155SoundingFull QF := by
  intro hall
  obtain ⟨e, he⟩ := hall (fun _ => [0, 1]) (fun _ _ => 0) ⟨.float, [2], [30, 40]⟩ ⟨.float, [2], [1, 1]⟩
    ⟨.float, [2], [1, 2]⟩ ⟨.float, [3], [10, -5, -20]⟩ "cifelli" none none (by simp [Orders, List.range, List.range.loop]) rfl rfl (by decide)
  have hh : hfrzAny (fun _ => [0, 1]) (fun _ _ => (0 : QF)) (some [10, -5, -20]) [1, 2] none =
      .ok (some (interp0 (-5) 10 2 1)) := by decide +kernel
  obtain ⟨w, i, hw⟩ := calcs_returns (α := QF) [30, 40] [1, 1] (getDeltaThresh [1, 2] (interp0 (-5) 10 2 1)) none none
    rfl (by rw [thresh_length]; rfl) (.inl rfl)
  simp only [calcLiquidIceMassAny, ravel_arr, optRavel, Except.map, bind, Except.bind, hh, hw] at he
  cases he

section soundings
open XR

/-- **C155**, temperatures beyond the altitudes: when the first ones, level by level, hold a positive and a negative
value and no zero, the others change nothing. -/
theorem C155_extra_temperatures_partial {argsort : List XR → List Nat} {polyfit1 : List XR → List XR → XR}
    (s : List (ℝ × ℝ)) (extra : List ℝ) (hs : Argsorts argsort s) (h0 : ∀ p ∈ s, p.1 ≠ 0) (hp : ∃ p ∈ s, 0 < p.1)
    (hn : ∃ p ∈ s, p.1 < 0) (d r : NdArray XR) (zshape tshape : List Nat) (method : String) (fitA fitB : Option XR) :
    calcLiquidIceMassAny argsort polyfit1 (.arr d) (.arr r) (.arr ⟨.float, zshape, alts s⟩)
        (some (.arr ⟨.float, tshape, temps s ++ extra.map fin⟩)) none method fitA fitB =
      calcLiquidIceMassAny argsort polyfit1 (.arr d) (.arr r) (.arr ⟨.float, zshape, alts s⟩)
        (some (.arr ⟨.float, zshape, temps s⟩)) none method fitA fitB := by
  have key : freezingAny argsort polyfit1 (temps s ++ extra.map fin) (alts s) =
      freezingAny argsort polyfit1 (temps s) (alts s) := by
    have hl : (temps s).length = (alts s).length := by simp [temps, alts]
    rcases extra with _ | ⟨y, ys⟩
    · simp
    have hne : (temps s ++ (y :: ys).map fin).length ≠ (alts s).length := by simp [temps, alts]
    rw [freezingAny, if_neg hne, freezingAny, if_pos hl, mixed_eq hs h0 hp hn]
    have hin : ∀ i ∈ argsort (alts s), i < s.length := fun i hi => List.mem_range.mp (hs.1.mem_iff.mp hi)
    have hany : (argsort (alts s)).any (fun i => decide ((temps s ++ (y :: ys).map fin).length ≤ i)) = false := by
      rw [List.any_eq_false]
      intro i hi
      have := hin i hi
      simp [temps]
      omega
    have hTz : (argsort (alts s)).map (fun i => (temps s ++ (y :: ys).map fin).getD i PyFloat.nan) =
        (argsort (alts s)).map (fun i => (temps s).getD i PyFloat.nan) := by
      apply List.map_congr_left
      intro i hi
      have := hin i hi
      rw [List.getD_eq_getElem?_getD, List.getD_eq_getElem?_getD, List.getElem?_append_left (by simpa [temps] using this)]
    simp only [sounding, hany, hTz, (sorted_cols hs).1, (sorted_cols hs).2, warm_alts, Bool.false_eq_true, if_false]
    cases hs' : s with
    | nil => subst hs'; simp at hp
    | cons x xs =>
      obtain ⟨M, eM, -, hM⟩ := npMax_fin x.1 (xs.map (·.1) ++ y :: ys)
      obtain ⟨m, em, -, hm⟩ := npMin_fin x.1 (xs.map (·.1) ++ y :: ys)
      have e : ∀ p ∈ x :: xs, p.1 ∈ x.1 :: (xs.map (·.1) ++ y :: ys) := by
        intro p hp
        rcases List.mem_cons.mp hp with rfl | hp
        · simp
        · exact List.mem_cons_of_mem _ (List.mem_append_left _ (List.mem_map_of_mem hp))
      have hMpos : 0 < M := by
        obtain ⟨p, hp, h⟩ := hp
        rw [hs'] at hp
        exact h.trans_le (hM p.1 (e p hp))
      have hmneg : m < 0 := by
        obtain ⟨p, hp, h⟩ := hn
        rw [hs'] at hp
        exact (hm p.1 (e p hp)).trans_lt h
      rw [List.map_append, List.map_map] at eM em
      simp only [temps, List.map_cons, List.cons_append]
      have eM' : npMax (fin x.1) (List.map (fun p => fin p.1) xs ++ fin y :: List.map fin ys) = fin M := eM
      have em' : npMin (fin x.1) (List.map (fun p => fin p.1) xs ++ fin y :: List.map fin ys) = fin m := em
      simp only [eM', em', fzero, fgt, flt, hMpos, hmneg, decide_true, Bool.and_self, if_true]
      congr 1
      funext zarg
      generalize List.take 2 (List.drop zarg (List.map (fun p => fin p.1) (sorted argsort (x :: xs)))) = L1
      generalize List.take 2 (List.drop zarg (alts (sorted argsort (x :: xs)))) = L2
      rcases L1 with _ | ⟨a, _ | ⟨b, _ | ⟨c, L1⟩⟩⟩ <;> rcases L2 with _ | ⟨d, _ | ⟨e, _ | ⟨f, L2⟩⟩⟩ <;> rfl
  simp only [calcLiquidIceMassAny, ravel_arr, optRavel, Except.map, bind, Except.bind, hfrzAny, key]

/-- more temperatures than altitudes, by the largest and the smallest of all of them -/
theorem sounding_long {argsort : List XR → List Nat} {polyfit1 : List XR → List XR → XR} (s : List (ℝ × ℝ)) (y : ℝ)
    (ys : List ℝ) (hs : Argsorts argsort s) (hne : s ≠ []) :
    ∃ M m : ℝ, (M ∈ s.map (·.1) ++ y :: ys ∧ ∀ t ∈ s.map (·.1) ++ y :: ys, t ≤ M) ∧
      (m ∈ s.map (·.1) ++ y :: ys ∧ ∀ t ∈ s.map (·.1) ++ y :: ys, m ≤ t) ∧
      freezingAny argsort polyfit1 (temps s ++ (y :: ys).map fin) (alts s) =
        if 0 < M ∧ m < 0 then (do
          let zarg ← argmax (((sorted argsort s).filter (fun p => decide (0 < p.1))).map (fun p => p.2) |>.map fin)
          match ((temps (sorted argsort s)).drop zarg).take 2, ((alts (sorted argsort s)).drop zarg).take 2 with
            | [a0, a1], [b0, b1] =>
              if a1 <. a0 then .ok (some (interp0 a1 a0 b1 b0)) else .ok (some (interp0 a0 a1 b0 b1))
            | _, _ => .error .indexError)
        else if M < 0 ∨ 0 < m then .ok (some (polyfit1 (temps (sorted argsort s)) (alts (sorted argsort s))))
        else .ok none := by
  have hne' : (temps s ++ (y :: ys).map fin).length ≠ (alts s).length := by simp [temps, alts]
  have hin : ∀ i ∈ argsort (alts s), i < s.length := fun i hi => List.mem_range.mp (hs.1.mem_iff.mp hi)
  have hany : (argsort (alts s)).any (fun i => decide ((temps s ++ (y :: ys).map fin).length ≤ i)) = false := by
    rw [List.any_eq_false]
    intro i hi
    have := hin i hi
    simp [temps]
    omega
  have hTz : (argsort (alts s)).map (fun i => (temps s ++ (y :: ys).map fin).getD i PyFloat.nan) =
      (argsort (alts s)).map (fun i => (temps s).getD i PyFloat.nan) := by
    apply List.map_congr_left
    intro i hi
    have := hin i hi
    rw [List.getD_eq_getElem?_getD, List.getD_eq_getElem?_getD, List.getElem?_append_left (by simpa [temps] using this)]
  have hq : temps (sorted argsort s) ≠ [] := by
    have hl := (sorted_perm hs).length_eq
    intro h
    have : (sorted argsort s).length = 0 := by rw [← List.length_map (f := fun p : ℝ × ℝ => fin p.1)]; exact congrArg _ h
    exact hne (List.length_eq_zero_iff.mp (by omega))
  cases hs' : s with
  | nil => exact absurd hs' hne
  | cons x xs =>
    obtain ⟨M, eM, hMm, hM⟩ := npMax_fin x.1 (xs.map (·.1) ++ y :: ys)
    obtain ⟨m, em, hmm, hm⟩ := npMin_fin x.1 (xs.map (·.1) ++ y :: ys)
    refine ⟨M, m, ⟨by simpa using hMm, by simpa using hM⟩, ⟨by simpa using hmm, by simpa using hm⟩, ?_⟩
    rw [List.map_append, List.map_map] at eM em
    have eM' : npMax (fin x.1) (List.map (fun p => fin p.1) xs ++ fin y :: List.map fin ys) = fin M := eM
    have em' : npMin (fin x.1) (List.map (fun p => fin p.1) xs ++ fin y :: List.map fin ys) = fin m := em
    rw [← hs', freezingAny, if_neg hne']
    simp only [sounding, hany, hTz, (sorted_cols hs).1, (sorted_cols hs).2, warm_alts, Bool.false_eq_true, if_false]
    have hl : temps s ++ (y :: ys).map fin = fin x.1 :: (List.map (fun p => fin p.1) xs ++ fin y :: List.map fin ys) := by
      rw [hs']; rfl
    have hemp : (temps (sorted argsort s)).isEmpty = false := by
      rw [List.isEmpty_eq_false_iff]; exact hq
    rw [hl]
    simp only [eM', em', fzero, fgt, flt, hemp, Bool.and_eq_true, Bool.or_eq_true, decide_eq_true_eq, Bool.false_eq_true,
      if_false]
    congr 1
    congr 1
    funext zarg
    generalize List.take 2 (List.drop zarg (temps (sorted argsort s))) = L1
    generalize List.take 2 (List.drop zarg (alts (sorted argsort s))) = L2
    rcases L1 with _ | ⟨a, _ | ⟨b, _ | ⟨c, L1⟩⟩⟩ <;> rcases L2 with _ | ⟨d, _ | ⟨e, _ | ⟨f, L2⟩⟩⟩ <;> rfl

/-- **C155**, temperatures beyond the altitudes, the first ones (level by level) all of one sign: the others change
nothing when they have that sign too; one of the other sign makes the call raise; otherwise (a zero among them) the
call returns None. -/
theorem C155_extra_one_sign {argsort : List XR → List Nat} {polyfit1 : List XR → List XR → XR}
    (s : List (ℝ × ℝ)) (y : ℝ) (ys : List ℝ) (hs : Argsorts argsort s) (hne : s ≠ []) (d r : NdArray XR)
    (zshape tshape : List Nat) (method : String) (fitA fitB : Option XR) :
    let call := calcLiquidIceMassAny argsort polyfit1 (.arr d) (.arr r) (.arr ⟨.float, zshape, alts s⟩)
        (some (.arr ⟨.float, tshape, temps s ++ (y :: ys).map fin⟩)) none method fitA fitB
    let cut := calcLiquidIceMassAny argsort polyfit1 (.arr d) (.arr r) (.arr ⟨.float, zshape, alts s⟩)
        (some (.arr ⟨.float, zshape, temps s⟩)) none method fitA fitB
    ((∀ p ∈ s, 0 < p.1) → ((∀ t ∈ y :: ys, 0 < t) → call = cut) ∧
      ((s.map (·.2)).Nodup → (∃ t ∈ y :: ys, t < 0) → call = .error .indexError) ∧
      ((∀ t ∈ y :: ys, 0 ≤ t) → (∃ t ∈ y :: ys, t = 0) → call = .ok none)) ∧
    ((∀ p ∈ s, p.1 < 0) → ((∀ t ∈ y :: ys, t < 0) → call = cut) ∧
      ((∃ t ∈ y :: ys, 0 < t) → call = .error .valueError) ∧
      ((∀ t ∈ y :: ys, t ≤ 0) → (∃ t ∈ y :: ys, t = 0) → call = .ok none)) := by
  intro call cut
  obtain ⟨M, m, ⟨hMm, hM⟩, ⟨hmm, hm⟩, key⟩ := sounding_long (polyfit1 := polyfit1) s y ys hs hne
  have hl : (temps s).length = (alts s).length := by simp [temps, alts]
  have hErr : ∀ e, freezingAny argsort polyfit1 (temps s ++ (y :: ys).map fin) (alts s) = .error e →
      call = .error e := by
    intro e h
    simp only [call, calcLiquidIceMassAny, ravel_arr, optRavel, Except.map, bind, Except.bind, hfrzAny, h]
  have hNone : freezingAny argsort polyfit1 (temps s ++ (y :: ys).map fin) (alts s) = .ok none →
      call = .ok none := by
    intro h
    simp only [call, calcLiquidIceMassAny, ravel_arr, optRavel, Except.map, bind, Except.bind, hfrzAny, h]
    rfl
  have same : freezingAny argsort polyfit1 (temps s ++ (y :: ys).map fin) (alts s) =
      freezingAny argsort polyfit1 (temps s) (alts s) → call = cut := by
    intro h
    simp only [call, cut, calcLiquidIceMassAny, ravel_arr, optRavel, Except.map, bind, Except.bind, hfrzAny, h]
  have hall : ∀ P : ℝ → Prop, (∀ p ∈ s, P p.1) → (∀ t ∈ y :: ys, P t) → ∀ t ∈ s.map (·.1) ++ y :: ys, P t := by
    intro P h1 h2 t ht
    rcases List.mem_append.mp ht with ht | ht
    · obtain ⟨p, hp, rfl⟩ := List.mem_map.mp ht
      exact h1 p hp
    · exact h2 t ht
  have hex : ∀ t ∈ y :: ys, t ∈ s.map (·.1) ++ y :: ys := fun t ht => List.mem_append_right _ ht
  have hin : ∀ p ∈ s, p.1 ∈ s.map (·.1) ++ y :: ys := fun p hp => List.mem_append_left _ (List.mem_map_of_mem hp)
  obtain ⟨p0, hp0⟩ := List.exists_mem_of_ne_nil s hne
  refine ⟨fun h => ⟨fun h1 => ?_, fun hnd ⟨t, ht, h1⟩ => ?_, fun h1 ⟨t, ht, h2⟩ => ?_⟩,
    fun h => ⟨fun h1 => ?_, fun ⟨t, ht, h1⟩ => ?_, fun h1 ⟨t, ht, h2⟩ => ?_⟩⟩
  · apply same
    have h0 : 0 < m := hall _ h h1 m hmm
    rw [key, if_neg (by rintro ⟨-, h⟩; linarith), if_pos (.inr h0), freezingAny, if_pos hl, one_sign_eq s hs hne (.inl h)]
  · have h2 : m < 0 := (hm t (hex t ht)).trans_lt h1
    have h3 : 0 < M := (h p0 hp0).trans_le (hM _ (hin p0 hp0))
    rw [if_pos ⟨h3, h2⟩] at key
    refine hErr _ (key.trans ?_)
    have hp := sorted_perm hs
    have hf : (sorted argsort s).filter (fun p => decide (0 < p.1)) = sorted argsort s := by
      rw [List.filter_eq_self]
      intro p hp'
      simpa using h p (hp.mem_iff.mp hp')
    have hinc : ((sorted argsort s).map (·.2)).Pairwise (· < ·) := by
      have h1 : ((sorted argsort s).map (·.2)).Pairwise (· ≤ ·) := by
        rw [sorted, List.map_map]; exact hs.2
      have h2 : ((sorted argsort s).map (·.2)).Nodup := (hp.map _).nodup_iff.mpr hnd
      exact (h1.and h2).imp (fun h => lt_of_le_of_ne h.1 h.2)
    rw [hf]
    have hq : sorted argsort s ≠ [] := fun hq => hne (List.length_eq_zero_iff.mp (by rw [← hp.length_eq, hq]; rfl))
    obtain ⟨q0, qs, hqe⟩ := List.exists_cons_of_ne_nil hq
    rw [hqe] at hinc ⊢
    have hz : argmax (((q0 :: qs).map (fun p => p.2)).map fin) = .ok qs.length := by
      simp only [List.map_cons, argmax]
      rw [argmaxGo_increasing _ _ _ _ hinc]
      cases qs <;> simp
    rw [hz]
    have l1 : (List.take 2 (List.drop qs.length (temps (q0 :: qs)))).length = 1 := by simp [temps]
    simp only [bind, Except.bind]
    generalize List.take 2 (List.drop qs.length (temps (q0 :: qs))) = L1 at l1
    match L1, l1 with
    | [a], _ => rfl
  · have h3 : 0 ≤ m := hall _ (fun p hp => (h p hp).le) h1 m hmm
    have h4 : m ≤ 0 := (hm t (hex t ht)).trans h2.le
    have h5 : 0 < M := (h p0 hp0).trans_le (hM _ (hin p0 hp0))
    refine hNone (key.trans ?_)
    rw [if_neg (by rintro ⟨-, h⟩; linarith), if_neg (by rintro (h | h) <;> linarith)]
  · apply same
    have h0 : M < 0 := hall _ h h1 M hMm
    rw [key, if_neg (by rintro ⟨h, -⟩; linarith), if_pos (.inl h0), freezingAny, if_pos hl, one_sign_eq s hs hne (.inr h)]
  · have h2 : 0 < M := h1.trans_le (hM t (hex t ht))
    have h3 : m < 0 := (hm _ (hin p0 hp0)).trans_lt (h p0 hp0)
    rw [if_pos ⟨h2, h3⟩] at key
    refine hErr _ (key.trans ?_)
    have : (sorted argsort s).filter (fun p => decide (0 < p.1)) = [] := by
      rw [List.filter_eq_nil_iff]
      intro p hp
      have := h p ((sorted_perm hs).mem_iff.mp hp)
      simp; linarith
    rw [this]
    rfl
  · have h3 : M ≤ 0 := hall _ (fun p hp => (h p hp).le) h1 M hMm
    have h4 : 0 ≤ M := h2.ge.trans (hM t (hex t ht))
    have h5 : m < 0 := (hm _ (hin p0 hp0)).trans_lt (h p0 hp0)
    refine hNone (key.trans ?_)
    rw [if_neg (by rintro ⟨h, -⟩; linarith), if_neg (by rintro (h | h) <;> linarith)]

/-- the hypotheses of `C155_extra_one_sign` on two warm levels and a third, cold, temperature -/
example : Argsorts (fun _ => [0, 1]) [(10, 1), (5, 2)] ∧ (∀ p ∈ ([(10, 1), (5, 2)] : List (ℝ × ℝ)), 0 < p.1) ∧
    (([(10, 1), (5, 2)] : List (ℝ × ℝ)).map (·.2)).Nodup ∧ (∃ t ∈ ([-3] : List ℝ), t < 0) :=
  ⟨⟨by decide, by simp⟩, by simp, by simp, ⟨-3, by simp, by norm_num⟩⟩

/-- the hypotheses of `C155_extra_temperatures_partial` on two levels -/
example : Argsorts (fun _ => [0, 1]) [(10, 1), (-5, 2)] ∧ (∃ p ∈ ([(10, 1), (-5, 2)] : List (ℝ × ℝ)), 0 < p.1) ∧
    (∃ p ∈ ([(10, 1), (-5, 2)] : List (ℝ × ℝ)), p.1 < 0) :=
  ⟨⟨by decide, by simp⟩, ⟨(10, 1), by simp, by norm_num⟩, ⟨(-5, 2), by simp, by norm_num⟩⟩

end soundings

/-- a call without temperatures that gives masses -/
theorem returns_same (d r z : NdArray α) (hr : r.data.length = d.data.length) (hz : z.data.length = d.data.length) :
    ∃ w i : List α, calcLiquidIceMassAny argsort polyfit1 (.arr d) (.arr r) (.arr z) none none "cifelli" none none =
      .ok (some (.arr ⟨.float, d.shape, w⟩, .arr ⟨.float, d.shape, i⟩)) := by
  obtain ⟨w, i, e⟩ := calcs_returns d.data r.data (getDeltaThresh z.data defaultHfrz) none none hr
    (by rw [thresh_length, hz]) (.inl rfl)
  exact ⟨w, i, by simp only [calcLiquidIceMassAny, ravel_arr, optRavel, hfrzAny, bind, Except.bind, e]; rfl⟩

/-- non-vacuity: a 2 by 3 reflectivity array with ZDR in a row of six and altitudes 3 by 2 -/
example : ∃ w i : List QF, calcLiquidIceMassAny (fun _ => []) (fun _ _ => 0)
    (.arr ⟨.float, [2, 3], [30, 40, 50, 20, 10, 35]⟩) (.arr ⟨.float, [6], [1, 0, 2, -1, 3, 1]⟩)
    (.arr ⟨.float, [3, 2], [1, 2, 3, 4, 5, 6]⟩) none none "cifelli" none none =
      .ok (some (.arr ⟨.float, [2, 3], w⟩, .arr ⟨.float, [2, 3], i⟩)) :=
  returns_same _ _ _ rfl rfl

/-- non-vacuity: one altitude, as a NumPy number, for two gates gives masses -/
example : ∃ w i : List QF, calcLiquidIceMassAny (fun _ => []) (fun _ _ => 0) (.arr ⟨.float, [2], [30, 40]⟩)
    (.arr ⟨.float, [2], [1, 0]⟩) (.num .np 3) none none "cifelli" none none =
      .ok (some (.arr ⟨.float, [2], w⟩, .arr ⟨.float, [2], i⟩)) := by
  rw [C155_one_altitude_partial ⟨.float, [2], [30, 40]⟩ ⟨.float, [2], [1, 0]⟩ _ 3 (.inl rfl) none none (.inl rfl) rfl
    "cifelli" none none]
  exact returns_same _ _ _ rfl rfl

/-- non-vacuity: two temperatures for three altitudes -/
example : Orders (α := QF) (fun _ => [0, 1, 2]) [1, 2, 3] ∧
    count (α := QF) (.arr ⟨.float, [2], [5, -5]⟩) < count (α := QF) (.arr ⟨.float, [3], [1, 2, 3]⟩) :=
  ⟨by simp [Orders, List.range, List.range.loop], by decide⟩

end Csu.LiquidIce
