import Verif.Model.Dsd
import Verif.Spec.Dsd
import Verif.Spec.Rain
import Verif.Lemmas.Rain
import Verif.XReal
import Verif.QFloat
/-!
# Properties C51 - C55: drop size distribution retrievals

The per-gate specification is `Verif/Spec/Dsd.lean`.
-/
namespace Csu.Dsd
open Csu PyFloat Csu.Common
variable {α : Type} [PyFloat α]

/-! ## Every branch is gatewise -/

theorem cband2009_gates (gs : List (α × α × α)) :
    cband2009 (gs.map (·.1)) (gs.map (·.2.1)) =
      ⟨gs.map (fun g => (DsdSpec.c2009 g.1 g.2.1).d0), gs.map (fun g => (DsdSpec.c2009 g.1 g.2.1).nw),
       gs.map (fun g => (DsdSpec.c2009 g.1 g.2.1).mu)⟩ := by
  simp only [cband2009, List.map_map, Function.comp_def, logicalAnd_map, maskCopy_map, zipWith_map_map]
  rfl

theorem sband2013_gates (gs : List (α × α × α)) :
    sband2013 (gs.map (·.1)) (gs.map (·.2.1)) =
      ⟨gs.map (fun g => (DsdSpec.s2013 g.1 g.2.1).d0), gs.map (fun g => (DsdSpec.s2013 g.1 g.2.1).nw),
       gs.map (fun g => (DsdSpec.s2013 g.1 g.2.1).mu)⟩ := by
  simp only [sband2013, List.map_map, Function.comp_def, maskCopy_map, zipWith_map_map]
  rfl

theorem zip_map_map {ι β γ : Type} (l : List ι) (p : ι → β) (q : ι → γ) :
    List.zip (l.map p) (l.map q) = l.map (fun g => (p g, q g)) := zipWith_map_map l Prod.mk p q

theorem sband2004_gates (gs : List (α × α × α)) :
    sband2004 (gs.map (·.1)) (gs.map (·.2.1)) (gs.map (·.2.2)) =
      ⟨gs.map (fun g => (DsdSpec.s2004 g.1 g.2.1 g.2.2).d0), gs.map (fun g => (DsdSpec.s2004 g.1 g.2.1 g.2.2).nw),
       gs.map (fun g => (DsdSpec.s2004 g.1 g.2.1 g.2.2).mu)⟩ := by
  simp only [sband2004, assign3, List.map_map, Function.comp_def, logicalAnd_map, maskCopy_map, zipWith_map_map,
    zip_map_map, Out.mk.injEq]
  refine ⟨?_, ?_, ?_⟩ <;>
  · apply List.map_congr_left
    rintro ⟨d, z, k⟩ -
    dsimp only
    simp only [DsdSpec.s2004, DsdSpec.method2004, Bool.and_comm (k <. 0.3)]
    split_ifs <;> rfl

theorem dispatch_gates (band method : String) (hb : band = "S" ∨ band = "C") (gs : List (α × α × α)) :
    dispatch band method (gs.map (·.1)) (gs.map (·.2.1)) (gs.map (·.2.2)) =
      some ⟨gs.map (fun g => (DsdSpec.gate band method g.1 g.2.1 g.2.2).d0),
        gs.map (fun g => (DsdSpec.gate band method g.1 g.2.1 g.2.2).nw),
        gs.map (fun g => (DsdSpec.gate band method g.1 g.2.1 g.2.2).mu)⟩ := by
  simp only [dispatch, DsdSpec.gate]
  rcases hb with rfl | rfl
  · by_cases hm : method = "2013"
    · simp only [hm, if_true, sband2013_gates]
    · simp only [hm, if_true, if_false, sband2004_gates]
  · simp only [show ("C" : String) ≠ "S" by decide, if_true, if_false, cband2009_gates]

/-! ## C55: argument contract -/

/-- **C55.** Arrays of one shape, band S or C, any method string: three float arrays of that shape, each gate holding
the retrieval of that gate's own values. -/
theorem C55_arrays_gatewise (band method : String) (hb : band = "S" ∨ band = "C") (d z k : NdArray α)
    (hs : RainSpec.SameShape d z k) :
    ∃ a b c : NdArray α, calcDsd band method (some (.arr d)) (some (.arr z)) (some (.arr k)) =
        .ok (some (.arr a b c)) ∧
      a.shape = d.shape ∧ b.shape = d.shape ∧ c.shape = d.shape ∧ a.WF ∧ b.WF ∧ c.WF ∧
      ∀ (i : Nat) (dv zv kv : α), d.data[i]? = some dv → z.data[i]? = some zv → k.data[i]? = some kv →
        a.data[i]? = some (DsdSpec.gate band method dv zv kv).d0 ∧
        b.data[i]? = some (DsdSpec.gate band method dv zv kv).nw ∧
        c.data[i]? = some (DsdSpec.gate band method dv zv kv).mu := by
  obtain ⟨hl1, hl2⟩ := Rain.SameShape.lengths hs
  obtain ⟨gs, h1, h2, h3⟩ := exists_gates3 d.data z.data k.data hl1 hl2
  have hlen : gs.length = d.data.length := by rw [← h1]; simp
  have key := dispatch_gates band method hb gs
  rw [h1, h2, h3] at key
  have hw : gs.length = d.shape.prod := by rw [hlen]; exact hs.1
  have call : calcDsd band method (some (.arr d)) (some (.arr z)) (some (.arr k)) = .ok (some (.arr
      ⟨.float, d.shape, gs.map (fun g => (DsdSpec.gate band method g.1 g.2.1 g.2.2).d0)⟩
      ⟨.float, d.shape, gs.map (fun g => (DsdSpec.gate band method g.1 g.2.1 g.2.2).nw)⟩
      ⟨.float, d.shape, gs.map (fun g => (DsdSpec.gate band method g.1 g.2.1 g.2.2).mu)⟩)) := by
    simp only [calcDsd, hs.2.2.2.1.symm, hs.2.2.2.2.symm, and_self, if_true, key]
  refine ⟨_, _, _, call, rfl, rfl, rfl, ?_, ?_, ?_, ?_⟩
  · simpa [NdArray.WF] using hw
  · simpa [NdArray.WF] using hw
  · simpa [NdArray.WF] using hw
  · intro i dv zv kv hd hz hk
    have hg := Rain.gate_of_cols h1 h2 h3 hd hz hk
    simp [hg]

/-- **C55.** Scalars in, scalars out: the retrieval of that one gate. -/
theorem C55_scalar (band method : String) (hb : band = "S" ∨ band = "C") (t1 t2 t3 : DType) (d z k : α) :
    calcDsd band method (some (.scalar t1 d)) (some (.scalar t2 z)) (some (.scalar t3 k)) =
      .ok (some (.scalar (DsdSpec.gate band method d z k).d0 (DsdSpec.gate band method d z k).nw
        (DsdSpec.gate band method d z k).mu)) := by
  have key := dispatch_gates band method hb [(d, z, k)]
  simp only [List.map_cons, List.map_nil] at key
  simp only [calcDsd, key, first]
  rfl

/-- **C55.** Any other band returns None, whatever the three fields are. -/
theorem C55_other_band (band method : String) (hS : band ≠ "S") (hC : band ≠ "C") (d z k : PyVal α)
    (h : ∀ a b c, d = .arr a → z = .arr b → k = .arr c → a.shape = b.shape ∧ a.shape = c.shape) :
    calcDsd band method (some d) (some z) (some k) = .ok none := by
  rcases d with ⟨_, _⟩ | a <;> rcases z with ⟨_, _⟩ | b <;> rcases k with ⟨_, _⟩ | c <;>
    simp only [calcDsd, dispatch, hS, hC, if_false, or_self]
  rw [if_pos (h a b c rfl rfl rfl)]

/-- C82, full statement: a missing field gives None. -/
def MissingGivesNone (α : Type) [PyFloat α] : Prop :=
  ∀ (band method : String) (dz zdr kdp : Option (PyVal α)), dz = none ∨ zdr = none ∨ kdp = none →
    calcDsd band method dz zdr kdp = .ok none

/-- **C82** is false of the code for every such call: it raises NameError. -/
theorem C82_missing_raises (band method : String) (dz zdr kdp : Option (PyVal α))
    (h : dz = none ∨ zdr = none ∨ kdp = none) : calcDsd band method dz zdr kdp = .error .nameError := by
  rcases dz with _ | (_ | _) <;> rcases zdr with _ | (_ | _) <;> rcases kdp with _ | (_ | _) <;>
    first
    | rfl
    | simp at h

/-- **C82**: the negation. -/
theorem C82_missing_gives_none_false : ¬ MissingGivesNone α := by
  intro h
  have := h "S" "2013" none none none (.inl rfl)
  rw [C82_missing_raises _ _ _ _ _ (.inl rfl)] at this
  cases this

/-- a 2 x 1 array call and its shape -/
example : RainSpec.SameShape (⟨.float, [2, 1], [40, 20]⟩ : NdArray QF) (⟨.float, [2, 1], [1, 2]⟩ : NdArray QF)
    (⟨.int, [2, 1], [0, 1]⟩ : NdArray QF) := by unfold RainSpec.SameShape; decide

/-! ## Numeric part -/
section numeric
open XR

theorem fpow_nat (x : ℝ) (n : ℕ) (hn : 0 < n) : (fin x ^ fin (n : ℝ)) = fin (x ^ n) := by
  rw [fpow_def, powFin]
  have hn' : (0 : ℝ) < n := by exact_mod_cast hn
  rcases lt_trichotomy 0 x with h | h | h
  · rw [if_pos h, Real.rpow_natCast]
  · subst h; simp [hn', hn.ne']
  · rw [if_neg h.not_gt, if_neg h.ne, if_pos (by simp)]
    simp

theorem fpow_nat4 (x : ℝ) : (fin x ^ (4 : XR)) = fin (x ^ 4) := by
  have := fpow_nat x 4 (by norm_num)
  rw [foflit]; exact_mod_cast this
theorem fpow_nat3 (x : ℝ) : (fin x ^ (3 : XR)) = fin (x ^ 3) := by
  have := fpow_nat x 3 (by norm_num)
  rw [foflit]; exact_mod_cast this
theorem fpow_nat2 (x : ℝ) : (fin x ^ (2 : XR)) = fin (x ^ 2) := by
  have := fpow_nat x 2 (by norm_num)
  rw [foflit]; exact_mod_cast this
theorem fpow_nat1 (x : ℝ) : (fin x ^ (1 : XR)) = fin x := by
  have := fpow_nat x 1 (by norm_num)
  rw [fone]; simpa using this

theorem lin_fin (d : ℝ) : DsdSpec.lin (fin d) = fin ((10 : ℝ) ^ (d / 10)) := by
  simp only [DsdSpec.lin, foflit]
  rw [fdiv (by norm_num), fpow (by norm_num)]

theorem lin_pos (d : ℝ) : (0 : ℝ) < 10 ^ (d / 10) := Real.rpow_pos_of_pos (by norm_num) _

/-- a finite positive float -/
def PosFin (x : XR) : Prop := ∃ r : ℝ, 0 < r ∧ x = fin r

/-- the three arrays hold finite positive D0 and Nw, and mu = `mu`, at every gate -/
def Physical (a b c : NdArray XR) (mu : ℝ) : Prop :=
  (∀ x ∈ a.data, PosFin x) ∧ (∀ x ∈ b.data, PosFin x) ∧ ∀ x ∈ c.data, x = fin mu

theorem s2013d0_pos (d z : ℝ) : PosFin (DsdSpec.s2013d0 (fin d) (fin z)) := by
  have e : ∀ a b c d' : ℝ, fin a * fin z ^ (3 : XR) + fin b * fin z ^ (2 : XR) + fin c * fin z ^ (1 : XR) + fin d' =
      fin (a * z ^ 3 + b * z ^ 2 + c * z + d') := by
    intros; simp only [fpow_nat3, fpow_nat2, fpow_nat1, fmul, fadd]
  have e' : ∀ a b c d' e : ℝ, fin a * fin z ^ (4 : XR) + fin b * fin z ^ (3 : XR) + fin c * fin z ^ (2 : XR) +
      fin d' * fin z ^ (1 : XR) + fin e = fin (a * z ^ 4 + b * z ^ 3 + c * z ^ 2 + d' * z + e) := by
    intros; simp only [fpow_nat4, fpow_nat3, fpow_nat2, fpow_nat1, fmul, fadd]
  simp only [DsdSpec.s2013d0, fsci, fneg, e, e']
  simp only [fone, fge, flt, decide_eq_true_eq]
  split_ifs with h1 h2
  · refine ⟨_, ?_, rfl⟩
    nlinarith [mul_nonneg (sub_nonneg.mpr h1) (sq_nonneg (z - 2)), sq_nonneg (z - 1)]
  · refine ⟨_, ?_, rfl⟩
    rcases le_total z 0 with hz | hz
    · have h3 : 0 ≤ -z ^ 3 := by
        have : z ^ 3 ≤ 0 := by nlinarith [sq_nonneg z]
        linarith
      nlinarith [sq_nonneg (z ^ 2), sq_nonneg (z + 0.37)]
    · have h3 : z ^ 3 ≤ z ^ 2 := by nlinarith [sq_nonneg z]
      nlinarith [sq_nonneg (z ^ 2), sq_nonneg z]
  · exact absurd (not_le.mp h1) h2

theorem c2009d0_pos (d z : ℝ) (hz : -0.5 ≤ z) : PosFin (DsdSpec.c2009d0 (fin d) (fin z)) := by
  have e : ∀ a b c d' : ℝ, fin a * fin z ^ (3 : XR) + fin b * fin z ^ (2 : XR) + fin c * fin z ^ (1 : XR) + fin d' =
      fin (a * z ^ 3 + b * z ^ 2 + c * z + d') := by
    intros; simp only [fpow_nat3, fpow_nat2, fpow_nat1, fmul, fadd]
  have e' : ∀ a b c d' e : ℝ, fin a * fin z ^ (4 : XR) + fin b * fin z ^ (3 : XR) + fin c * fin z ^ (2 : XR) +
      fin d' * fin z ^ (1 : XR) + fin e = fin (a * z ^ 4 + b * z ^ 3 + c * z ^ 2 + d' * z + e) := by
    intros; simp only [fpow_nat4, fpow_nat3, fpow_nat2, fpow_nat1, fmul, fadd]
  simp only [DsdSpec.c2009d0, fsci, fneg, e, e']
  simp only [fgt, fge, fle, decide_eq_true_eq, Bool.and_eq_true]
  split_ifs with h1 h2
  · refine ⟨_, ?_, rfl⟩
    have : 0 < 0.0355 * z ^ 2 + -0.3021 * z + 1.0556 := by nlinarith [sq_nonneg (z - 4.25)]
    have hz' : 0 < z := by linarith
    nlinarith [mul_pos hz' this]
  · refine ⟨_, ?_, rfl⟩
    rcases le_total z 0 with h | h
    · have h3 : 0 ≤ -z ^ 3 := by
        have : z ^ 3 ≤ 0 := by nlinarith [sq_nonneg z]
        linarith
      nlinarith [sq_nonneg (z ^ 2), sq_nonneg z]
    · have h3 : z ^ 3 ≤ 1.25 * z ^ 2 := by nlinarith [sq_nonneg z, h2.2]
      nlinarith [sq_nonneg (z ^ 2), sq_nonneg z]
  · exact absurd ⟨hz, not_lt.mp h1⟩ h2

theorem s2013_physical (d z : ℝ) :
    PosFin (DsdSpec.s2013 (fin d) (fin z)).d0 ∧ PosFin (DsdSpec.s2013 (fin d) (fin z)).nw ∧
    (DsdSpec.s2013 (fin d) (fin z)).mu = fin 3 := by
  obtain ⟨r, hr, e⟩ := s2013d0_pos d z
  refine ⟨⟨r, hr, e⟩, ?_, ?_⟩
  · simp only [DsdSpec.s2013, e, lin_fin, fsci, fone]
    rw [fpow hr, fmul, fmul, fdiv (by positivity)]
    exact ⟨_, by have := lin_pos d; positivity, rfl⟩
  · simp [DsdSpec.s2013]

theorem c2009_physical (d z : ℝ) (hz : -0.5 ≤ z) :
    PosFin (DsdSpec.c2009 (fin d) (fin z)).d0 ∧ PosFin (DsdSpec.c2009 (fin d) (fin z)).nw ∧
    (DsdSpec.c2009 (fin d) (fin z)).mu = fin 3 := by
  obtain ⟨r, hr, e⟩ := c2009d0_pos d z hz
  refine ⟨⟨r, hr, e⟩, ?_, ?_⟩
  · simp only [DsdSpec.c2009, e, lin_fin, fsci]
    rw [fpow hr, fmul, fdiv (by positivity)]
    exact ⟨_, by have := lin_pos d; positivity, rfl⟩
  · simp [DsdSpec.c2009]

/-- lifting a per-gate fact to the arrays -/
theorem forall_of_gates {β : Type} {a : NdArray β} {d z k : NdArray XR} (hs : RainSpec.SameShape d z k) (ha : a.WF)
    (hsh : a.shape = d.shape) (P : β → Prop)
    (h : ∀ (i : Nat) (dv zv kv : XR), d.data[i]? = some dv → z.data[i]? = some zv → k.data[i]? = some kv →
      ∃ x, a.data[i]? = some x ∧ P x) : ∀ x ∈ a.data, P x := by
  intro x hx
  obtain ⟨hl1, hl2⟩ := Rain.SameShape.lengths hs
  obtain ⟨i, hi⟩ := List.mem_iff_getElem?.mp hx
  have hlen : a.data.length = d.data.length := by
    have := hs.1; rw [NdArray.WF] at ha this; rw [ha, this, hsh]
  have hil : i < a.data.length := by
    by_contra hc; rw [List.getElem?_eq_none_iff.mpr (by omega)] at hi; simp at hi
  obtain ⟨y, hy, hv⟩ := h i _ _ _ (List.getElem?_eq_getElem (by omega)) (List.getElem?_eq_getElem (by omega))
    (List.getElem?_eq_getElem (by omega))
  rw [hi] at hy; cases hy; exact hv

/-- **C51.** S band, 2013: for arrays of any shape with finite `dz` and `zdr` (any `kdp`), D0 and Nw are finite and
positive and mu is 3 at every gate. -/
theorem C51_sband2013_physical (d z k : NdArray XR) (hs : RainSpec.SameShape d z k)
    (hd : ∀ x ∈ d.data, ∃ r : ℝ, x = fin r) (hz : ∀ x ∈ z.data, ∃ r : ℝ, x = fin r) :
    ∃ a b c, calcDsd "S" "2013" (some (.arr d)) (some (.arr z)) (some (.arr k)) = .ok (some (.arr a b c)) ∧
      a.shape = d.shape ∧ b.shape = d.shape ∧ c.shape = d.shape ∧ Physical a b c 3 := by
  obtain ⟨a, b, c, e, h1, h2, h3, w1, w2, w3, hv⟩ := C55_arrays_gatewise "S" "2013" (.inl rfl) d z k hs
  refine ⟨a, b, c, e, h1, h2, h3, forall_of_gates hs w1 h1 _ ?_, forall_of_gates hs w2 h2 _ ?_,
    forall_of_gates hs w3 h3 _ ?_⟩ <;>
  · intro i dv zv kv e1 e2 e3
    obtain ⟨dr, rfl⟩ := hd _ (List.mem_of_getElem? e1)
    obtain ⟨zr, rfl⟩ := hz _ (List.mem_of_getElem? e2)
    have := hv i _ _ _ e1 e2 e3
    simp only [DsdSpec.gate, if_true] at this
    first
    | exact ⟨_, this.1, (s2013_physical dr zr).1⟩
    | exact ⟨_, this.2.1, (s2013_physical dr zr).2.1⟩
    | exact ⟨_, this.2.2, (s2013_physical dr zr).2.2⟩

/-- Full statement of C52. -/
def CbandPhysical : Prop :=
  ∀ (d z k : NdArray XR), RainSpec.SameShape d z k → (∀ x ∈ d.data, ∃ r : ℝ, x = fin r) →
    (∀ x ∈ z.data, ∃ r : ℝ, x = fin r) → ∀ method,
    ∃ a b c, calcDsd "C" method (some (.arr d)) (some (.arr z)) (some (.arr k)) = .ok (some (.arr a b c)) ∧
      Physical a b c 3

/-- what happens at every C-band gate with `zdr < -0.5`: D0 is 0 and Nw is plus infinity -/
theorem C52_low_zdr_infinite (method : String) (t1 t2 t3 : DType) (d z k : ℝ) (hz : z < -0.5) :
    calcDsd "C" method (some (.scalar t1 (fin d))) (some (.scalar t2 (fin z))) (some (.scalar t3 (fin k))) =
      .ok (some (.scalar (fin 0) pinf (fin 3))) := by
  rw [C55_scalar "C" method (.inr rfl)]
  have h1 : DsdSpec.c2009d0 (fin d) (fin z) = fin 0 := by
    simp only [DsdSpec.c2009d0, fsci, fneg, fgt, fge, fle]
    rw [if_neg (by simp; norm_num at hz ⊢; linarith), if_neg (by simp; intro h; norm_num at hz h; linarith)]
    simp
  have h2 : (DsdSpec.c2009 (fin d) (fin z)).nw = pinf := by
    simp only [DsdSpec.c2009, h1, lin_fin, fsci]
    rw [fpow_nonneg (le_refl 0) (by norm_num), Real.zero_rpow (by norm_num), fmul, mul_zero, fdiv_def, if_pos rfl,
      infOfSign, if_pos (lin_pos d)]
  have h3 : (DsdSpec.c2009 (fin d) (fin z)).mu = fin 3 := by simp [DsdSpec.c2009]
  have h0 : (DsdSpec.c2009 (fin d) (fin z)).d0 = fin 0 := h1
  simp only [DsdSpec.gate, show ("C" : String) ≠ "S" by decide, if_false, h0, h2, h3]

/-- **C52 is false of the code**: a finite gate with zdr = -1 dB. -/
theorem C52_cband_physical_false : ¬ CbandPhysical := by
  intro h
  have hs : RainSpec.SameShape (⟨.float, [1], [fin 20]⟩ : NdArray XR) (⟨.float, [1], [fin (-1)]⟩ : NdArray XR)
      (⟨.float, [1], [fin 0]⟩ : NdArray XR) := ⟨rfl, rfl, rfl, rfl, rfl⟩
  obtain ⟨a, b, c, e, hp, -, -⟩ := h _ _ _ hs (by simp) (by simp) "2009"
  obtain ⟨a', b', c', e', h1, -, -, w1, -, -, hv⟩ := C55_arrays_gatewise "C" "2009" (.inr rfl) _ _ _ hs
  rw [e] at e'
  injection e' with e'
  injection e' with e'
  injection e' with ea eb ec
  subst ea
  have h0 := (hv 0 _ _ _ rfl rfl rfl).1
  obtain ⟨r, hr, e⟩ := hp _ (List.mem_of_getElem? h0)
  have h2 := C52_low_zdr_infinite "2009" .float .float .float 20 (-1) 0 (by norm_num)
  rw [C55_scalar "C" "2009" (.inr rfl)] at h2
  injection h2 with h2
  injection h2 with h2
  injection h2 with h2 _ _
  rw [h2] at e
  rw [fin_inj] at e
  exact hr.ne e

/-- **C52**, what holds: all finite gates with `zdr >= -0.5`. -/
theorem C52_cband_physical_partial (method : String) (d z k : NdArray XR) (hs : RainSpec.SameShape d z k)
    (hd : ∀ x ∈ d.data, ∃ r : ℝ, x = fin r) (hz : ∀ x ∈ z.data, ∃ r : ℝ, -0.5 ≤ r ∧ x = fin r) :
    ∃ a b c, calcDsd "C" method (some (.arr d)) (some (.arr z)) (some (.arr k)) = .ok (some (.arr a b c)) ∧
      a.shape = d.shape ∧ b.shape = d.shape ∧ c.shape = d.shape ∧ Physical a b c 3 := by
  obtain ⟨a, b, c, e, h1, h2, h3, w1, w2, w3, hv⟩ := C55_arrays_gatewise "C" method (.inr rfl) d z k hs
  refine ⟨a, b, c, e, h1, h2, h3, forall_of_gates hs w1 h1 _ ?_, forall_of_gates hs w2 h2 _ ?_,
    forall_of_gates hs w3 h3 _ ?_⟩ <;>
  · intro i dv zv kv e1 e2 e3
    obtain ⟨dr, rfl⟩ := hd _ (List.mem_of_getElem? e1)
    obtain ⟨zr, hzr, rfl⟩ := hz _ (List.mem_of_getElem? e2)
    have := hv i _ _ _ e1 e2 e3
    simp only [DsdSpec.gate, show ("C" : String) ≠ "S" by decide, if_false] at this
    first
    | exact ⟨_, this.1, (c2009_physical dr zr hzr).1⟩
    | exact ⟨_, this.2.1, (c2009_physical dr zr hzr).2.1⟩
    | exact ⟨_, this.2.2, (c2009_physical dr zr hzr).2.2⟩

/-- a two-gate call with very negative and very large values meets the hypotheses of C51 -/
example : RainSpec.SameShape (⟨.float, [2], [fin (-30), fin 70]⟩ : NdArray XR)
    (⟨.float, [2], [fin (-8), fin 8]⟩ : NdArray XR) (⟨.float, [2], [XR.nan, fin 0]⟩ : NdArray XR) ∧
    (∀ x ∈ [fin (-8), fin 8], ∃ r : ℝ, x = fin r) := ⟨⟨rfl, rfl, rfl, rfl, rfl⟩, by simp⟩

end numeric
end Csu.Dsd
