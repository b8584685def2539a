import Verif.Binary
import Verif.Props.KdpApi
import Verif.Props.KdpGate
/-!
# KDP in floating point

The kernels store to `float32` arrays and variables.  Here: what this guarantees (C145), the standard deviation with rounding (C146), and two properties
that hold in exact arithmetic (C71, C12) and fail in floating point are in `KdpRound` (C147) and `KdpError` (C148).
-/
namespace Csu.Kdp
open Csu PyFloat

/-! ## C145: what is returned is float32 -/
section inv
variable {α : Type} [PyFloat α]

theorem fill_inv {D : Dialect α} {chk : Bool} {R : Ray α} {ab : α × α} {js : List Int} {z z' : Buf α} (P : α → Prop) (hf : ∀ x : α, P (f32 x))
    (e : fill D chk R ab js z = .ok z') (n : Int) (h : ∀ j : Int, 0 ≤ j → j < n → P (z.mem j)) : ∀ j : Int, 0 ≤ j → j < n → P (z'.mem j) := by
  unfold fill at e
  refine foldlM_inv (I := fun w : Buf α => ∀ j : Int, 0 ≤ j → j < n → P (w.mem j)) h (fun s k r _ hs hr => ?_) e
  obtain ⟨v, hv, hr⟩ := bind_ok hr
  split at hr
  · obtain ⟨t, ht, hr⟩ := bind_ok hr
    rw [set_val hr]
    intro j j0 j1
    dsimp only
    split
    · exact hf _
    · exact hs j j0 j1
  · cases hr; exact hs

theorem passes_inv {D : Dialect α} {chk : Bool} {R : Ray α} {sd : Buf α} (P : α → Prop) (hf : ∀ x : α, P (f32 x)) (k : Nat)
    {yz r : Buf α × Buf α} (e : firPasses D chk R sd k yz = .ok r) (n : Int)
    (h1 : ∀ j : Int, 0 ≤ j → j < n → P (yz.1.mem j)) (h2 : ∀ j : Int, 0 ≤ j → j < n → P (yz.2.mem j)) :
    ∀ j : Int, 0 ≤ j → j < n → P (r.2.mem j) := by
  induction k generalizing yz with
  | zero => cases e; exact h2
  | succ k ih =>
    unfold firPasses at e
    obtain ⟨w, hw, e⟩ := bind_ok e
    unfold firPass at hw
    obtain ⟨v, hv, hw⟩ := bind_ok hw
    have key := foldlM_inv (I := fun s : Buf α × Buf α => (∀ j : Int, 0 ≤ j → j < n → P (s.1.mem j)) ∧ ∀ j : Int, 0 ≤ j → j < n → P (s.2.mem j))
      ⟨h1, h2⟩ (fun s i r _ hs hr => by
        rcases firGate_cases hr with rfl | ⟨pts, z, A, -, -, -, -, hz, -, rfl⟩
        · exact hs
        · refine ⟨fun j j0 j1 => ?_, ?_⟩
          · dsimp only
            split
            · exact hf _
            · exact hs.1 j j0 j1
          · rcases hz with ⟨-, ab, -, hfill⟩ | ⟨-, rfl⟩
            · exact fill_inv P hf hfill n hs.2
            · exact hs.2) hv
    cases hw
    exact ih e key.1 key.1

/-- Whatever holds of all float32 values, of the bad value, of 100 and of the phases put in, holds of everything returned. -/
theorem outputs_inv {D : Dialect α} {chk : Bool} {R : Ray α} {out : RayOut α} (P : α → Prop) (hf : ∀ x : α, P (f32 x)) (hb : P R.bad)
    (h100 : P 100.0) (hd : ∀ j : Nat, j < R.n → P (R.dp.mem j)) (e : calcKdpRayFir D chk R = .ok out) :
    ∀ v ∈ out.kd ++ out.dp ++ out.sd, P v := by
  obtain ⟨yz, r⟩ := calc_run e
  intro v hv
  rw [List.mem_append, List.mem_append] at hv
  rcases hv with (hv | hv) | hv
  · obtain ⟨i, hi, rfl⟩ := List.mem_iff_getElem.mp hv
    obtain ⟨m1, m2, g⟩ := r.kd i hi
    unfold kdpGate at g
    obtain ⟨d, -, g⟩ := bind_ok g
    split at g
    · dsimp only at g
      obtain ⟨pts, -, g⟩ := bind_ok g
      split at g
      · obtain ⟨ab, -, g⟩ := bind_ok g
        injection g with g; injection g with g1 g2
        rw [← g1]; exact hf _
      · injection g with g; injection g with g1 g2
        rw [← g1]; exact hb
    · injection g with g; injection g with g1 g2
      rw [← g1]; exact hb
  · obtain ⟨i, hi, rfl⟩ := List.mem_iff_getElem.mp hv
    rw [r.dp i hi]
    have hlen := r.dpLen
    refine passes_inv P hf R.nf r.passes R.n (fun j j0 j1 => ?_) (fun j j0 j1 => ?_) i (by omega) (by omega)
    · obtain ⟨q, rfl⟩ : ∃ q : Nat, j = q := ⟨j.toNat, by omega⟩
      rw [ofList_get _ _ _ (by simp; omega)]
      simpa using hb
    · obtain ⟨q, rfl⟩ : ∃ q : Nat, j = q := ⟨j.toNat, by omega⟩
      rw [ofList_map_gates _ _ (by omega) (by omega)]
      exact hd q (by omega)
  · obtain ⟨i, hi, rfl⟩ := List.mem_iff_getElem.mp hv
    have g := r.sd i hi
    unfold sdAt at g
    split at g
    · obtain ⟨xs, -, g⟩ := bind_ok g
      dsimp only at g
      split at g
      · split at g
        · cases g
        · rw [← Except.ok.inj g]; exact hf _
      · rw [← Except.ok.inj g]; exact h100
    · rw [← Except.ok.inj g]; exact h100
end inv

/-- the rays of a result -/
def Ret2.rays {α : Type} : Ret2 α → List (RayOut α)
  | .one o => [o]
  | .two os => os
  | _ => []

/-- is `v` a float32? -/
def Is32 {α : Type} [IeeeFloat α] (v : α) : Prop := IeeeFloat.rnd32 α (IeeeFloat.val v) = IeeeFloat.val v

theorem is32_f32 {α : Type} [IeeeFloat α] (x : α) : Is32 (f32 x) := by
  unfold Is32; rw [IeeeFloat.val_f32, IeeeFloat.rnd32_idem]

theorem is32_100 {α : Type} [IeeeFloat α] : Is32 (100.0 : α) := by
  have hs : Ieee.Simple 100 := Ieee.simple_nat 100 (by norm_num)
  have e : IeeeFloat.val (100.0 : α) = .fin 100 := by
    show IeeeFloat.val (PyFloat.lit _ : α) = _
    rw [IeeeFloat.val_lit, show (((OfScientific.ofScientific 1000 true 1 : ℚ)) : ℝ) = 100 by norm_num]
    exact Ieee.rnd_simple hs
  unfold Is32
  rw [e]
  obtain ⟨n, k, h1, h2, h3⟩ := hs
  rw [h3]; exact IeeeFloat.rnd32_exact n k h1 h2

/-- **C145.**  Every number that `calc_kdp_bringi` returns — KDP, filtered phase and standard deviation, of every ray and gate, from either kernel — is
a float32, for any filter, any data of any precision (NaN and infinities included), any bad value and whatever is in memory outside the arrays. -/
theorem C145_outputs_float32 {α : Type} [IeeeFloat α] (D : Dialect α) (J : Junk α) (fir : Except PyErr (Option (Fir α)))
    (dp dz rng : Option (Data α)) (o : KdpOpts α) (ret : Ret2 α) (e : kdpWithFir D J fir dp dz rng o = .ok ret) :
    ∀ r ∈ ret.rays, ∀ v ∈ r.kd ++ r.dp ++ r.sd, Is32 v := by
  have key : ∀ (f : Fir α) (ray : Nat) (a b c t : Buf α) (out : RayOut α), calcKdpRayFir D false (rayCall D J f o ray a b c t) = .ok out →
      ∀ v ∈ out.kd ++ out.dp ++ out.sd, Is32 v := fun f ray a b c t out h =>
    outputs_inv Is32 is32_f32 (is32_f32 _) is32_100 (fun j _ => is32_f32 _) h
  unfold kdpWithFir at e
  split at e
  · split at e
    · cases e; simp [Ret2.rays]
    · obtain ⟨f, hf, e⟩ := bind_ok e
      split at e
      · cases e; simp [Ret2.rays]
      · split at e
        · obtain ⟨outs, hm, e⟩ := bind_ok e
          cases e
          intro r hr
          obtain ⟨i, hi, rfl⟩ := List.mem_iff_getElem.mp hr
          have hi : i < outs.length := hi
          have hl := (mapM_get hm).1
          have := (mapM_get hm).2 i (by omega) hi
          unfold ray2 at this
          split at this
          · obtain ⟨t, -, this⟩ := bind_ok this
            exact key _ _ _ _ _ _ _ this
          · cases this
        · obtain ⟨t, -, e⟩ := bind_ok e
          obtain ⟨out, ho, e⟩ := bind_ok e
          cases e
          intro r hr
          rw [List.mem_singleton.mp hr]
          exact key _ _ _ _ _ _ _ ho
        · cases e; simp [Ret2.rays]
  · cases e; simp [Ret2.rays]

/-! ## C146: the standard deviation with rounding -/
section sd
open IeeeFloat Ieee
variable {α : Type} [IeeeFloat α]

/-- a nonnegative number, `+inf` or NaN -/
def NotNegative (v : α) : Prop := val v = .nan ∨ XR.le (.fin 0) (val v) = true

theorem rnd32_simple {x : ℝ} (h : Simple x) : rnd32 α (.fin x) = .fin x := by
  obtain ⟨n, k, h1, h2, rfl⟩ := h
  exact rnd32_exact n k h1 h2

theorem w_simple (D : Dialect α) {v : α} {x : ℝ} (h : Simple x) (hv : val v = .fin x) : val (D.w v) = .fin x := by
  unfold Dialect.w
  split
  · rw [val_f32, hv, rnd32_simple h]
  · exact hv

theorem notNegative_sqrt (D : Dialect α) (x : α) : NotNegative (f32 (PyFloat.sqrt x)) := by
  unfold NotNegative
  rw [val_f32, val_sqrt]
  have h : XR.sqrt (val x) = .nan ∨ XR.le (.fin 0) (XR.sqrt (val x)) = true := by
    cases val x with
    | fin a =>
      simp only [XR.sqrt]
      split_ifs
      · right; rw [le_fin]; exact Real.sqrt_nonneg a
      · left; rfl
    | pinf => right; rfl
    | nan => left; rfl
    | ninf => left; rfl
  rcases h with h | h
  · left; rw [h, rnd_nan, rnd32_nan]
  · right
    have := rnd32_mono (α := α) _ _ (rnd_ge (α := α) simple_zero h)
    rwa [rnd32_simple simple_zero] at this

/-- **C146, sign.**  No standard deviation returned is negative (it may be `+inf` or NaN), whatever the rounding, in both kernels. -/
theorem C146_std_not_negative (D : Dialect α) (chk : Bool) (R : Ray α) (out : RayOut α) (e : calcKdpRayFir D chk R = .ok out) :
    ∀ v ∈ out.sd, NotNegative v := by
  obtain ⟨yz, r⟩ := calc_run e
  have h100 : NotNegative (100.0 : α) := by
    right
    show XR.le _ (val (PyFloat.lit _ : α)) = true
    rw [val_lit]
    exact rnd_ge simple_zero (by rw [le_fin]; norm_num)
  intro v hv
  obtain ⟨i, hi, rfl⟩ := List.mem_iff_getElem.mp hv
  have g := r.sd i hi
  unfold sdAt at g
  split at g
  · obtain ⟨xs, -, g⟩ := bind_ok g
    dsimp only at g
    split at g
    · split at g
      · cases g
      · rw [← Except.ok.inj g]; exact notNegative_sqrt D _
    · rw [← Except.ok.inj g]; exact h100
  · rw [← Except.ok.inj g]; exact h100

theorem sd_const (D : Dialect α) (bad : α) (c : ℝ) (xs : List α) (hx : ∀ x ∈ xs, (x !=. bad) = true → val x = .fin c)
    (s : SdAcc α) (hN : s.N + xs.length ≤ 2 ^ 24) (hA : val s.A = .fin 0) (hV : val s.V = .fin 0) (hW : s.N = 0 ∨ val s.W = .fin c) :
    val (xs.foldl (sdStep D bad) s).V = .fin 0 ∧ (xs.foldl (sdStep D bad) s).N = s.N + (xs.filter (fun x => x !=. bad)).length := by
  induction xs generalizing s with
  | nil => exact ⟨hV, rfl⟩
  | cons x xs ih =>
    have hx' : ∀ y ∈ xs, (y !=. bad) = true → val y = .fin c := fun y hy => hx y (by simp [hy])
    rw [List.length_cons] at hN
    rw [List.foldl_cons]
    by_cases hg : (x !=. bad) = true
    · have hxv := hx x (by simp) hg
      have hstep : val (sdStep D bad s x).A = .fin 0 ∧ val (sdStep D bad s x).V = .fin 0 ∧ val (sdStep D bad s x).W = .fin c ∧
          (sdStep D bad s x).N = s.N + 1 := by
        have hWv : val (if s.N = 0 then x else s.W) = .fin c := by
          split
          · exact hxv
          · rcases hW with h | h
            · exact absurd h ‹_›
            · exact h
        have nat : ∀ m : Nat, m ≤ 2 ^ 24 → Simple (m : ℝ) := fun m hm => by
          have := simple_int (m : ℤ) (by rw [abs_of_nonneg (by omega)]; exact_mod_cast hm)
          simpa using this
        have natw : ∀ m : Nat, m ≤ 2 ^ 24 → val (D.w (PyFloat.ofNat m : α)) = .fin (m : ℝ) := fun m hm =>
          w_simple D (nat m hm) (by rw [vnat, rnd_simple (nat m hm)])
        have zero : ∀ v : α, val v = .fin 0 → val (D.w v) = .fin 0 := fun v h => w_simple D simple_zero h
        have d0 : val (D.w (D.w (x - (if s.N = 0 then x else s.W)) - s.A)) = .fin 0 := by
          refine zero _ ?_
          rw [vsub, zero _ (by rw [vsub, hxv, hWv, XR.fsub, sub_self, rnd_simple simple_zero]), hA, XR.fsub, sub_self, rnd_simple simple_zero]
        have hN1 : ((s.N + 1 : Nat) : ℝ) ≠ 0 := by positivity
        have div0 : ∀ v : α, val v = .fin 0 → val (D.w (v / D.w (PyFloat.ofNat (s.N + 1)))) = .fin 0 := by
          intro v hv
          refine zero _ ?_
          have hne : val (D.w (PyFloat.ofNat (s.N + 1) : α)) ≠ .fin 0 := by
            rw [natw _ (by omega)]; simpa using hN1
          rw [vdiv _ _ hne, natw _ (by omega), hv, XR.fdiv hN1, zero_div, rnd_simple simple_zero]
        have add0 : ∀ v w : α, val v = .fin 0 → val w = .fin 0 → val (D.w (v + w)) = .fin 0 := by
          intro v w hv hw
          refine zero _ ?_
          rw [vadd, hv, hw, XR.fadd, add_zero, rnd_simple simple_zero]
        have sq0 : ∀ v : α, val v = .fin 0 → val (D.w (v ^ (2 : α))) = .fin 0 := by
          intro v hv
          refine zero _ ?_
          have h2 : val (2 : α) = .fin 2 := voflit 2 (by norm_num)
          have rs := val_pow (α := α) v 2 (.inr (by rw [h2, le_fin]; norm_num))
          have e : XR.pow (val v) (val (2 : α)) = .fin 0 := by rw [hv, h2]; simp [XR.pow, XR.powFin]
          rw [e] at rs
          obtain ⟨r, h1, h3, h4⟩ := between (rs.ge0 (by rw [le_fin])) (rs.le0 (by rw [le_fin]))
          show val (PyFloat.pow v 2) = _
          rw [h1, le_antisymm h4 h3]
        unfold sdStep
        rw [if_pos hg]
        refine ⟨add0 _ _ (div0 _ d0) hA, ?_, hWv, rfl⟩
        refine add0 _ _ (div0 _ (zero _ ?_)) hV
        rw [vmul, natw _ (by omega), sq0 _ d0, XR.fmul, mul_zero, rnd_simple simple_zero]
      obtain ⟨a, b, d, n⟩ := hstep
      have := ih hx' (sdStep D bad s x) (by rw [n]; omega) a b (.inr d)
      refine ⟨this.1, ?_⟩
      rw [this.2, n, List.filter_cons, if_pos hg, List.length_cons]; omega
    · have hsame : sdStep D bad s x = s := by unfold sdStep; rw [if_neg hg]
      rw [hsame]
      have := ih hx' s (by omega) hA hV hW
      refine ⟨this.1, ?_⟩
      rw [this.2, List.filter_cons, if_neg hg]

/-- **C146, constant phase.**  If all good phases of the `2h+1` gates around gate `i` are the same number and there are more than `h` of them, the
standard deviation is exactly 0, whatever the rounding, in both kernels (windows of at most `2^24` gates). -/
theorem C146_constant_phase (D : Dialect α) (chk : Bool) (R : Ray α) (h : Nat) (hs : R.stdGate = 2 * h + 1) (hbig : 2 * h + 1 ≤ 2 ^ 24)
    (out : RayOut α) (e : calcKdpRayFir D chk R = .ok out) (i : Nat) (h0 : h ≤ i) (hi : i + h < R.n) (c : ℝ)
    (hc : ∀ k : Nat, k < 2 * h + 1 → (R.dp.mem (i - h + k : Nat) !=. R.bad) = true → val (R.dp.mem (i - h + k : Nat)) = .fin c)
    (hcount : h < ((List.range (2 * h + 1)).filter (fun k => R.dp.mem (i - h + k : Nat) !=. R.bad)).length) :
    ∃ v, out.sd[i]? = some v ∧ val v = .fin 0 := by
  obtain ⟨yz, r⟩ := calc_run e
  have h1 : i < out.sd.length := by have := r.sdLen; omega
  refine ⟨_, List.getElem?_eq_getElem h1, ?_⟩
  have g := r.sd i h1
  have hh : R.halfStd = h := by unfold Ray.halfStd; omega
  unfold sdAt at g
  rw [hh, if_pos (by omega)] at g
  obtain ⟨xs, hm, g⟩ := bind_ok g
  have hxs := mapM_rd hm
  have hr : rangeI ((i : Int) - h) (i + h + 1) = (List.range (2 * h + 1)).map (fun k : Nat => ((i - h + k : Nat) : Int)) := by
    unfold rangeI
    rw [show ((i : Int) + h + 1 - (i - h)).toNat = 2 * h + 1 by omega]
    apply List.map_congr_left
    intro k _
    simp only [Int.ofNat_eq_natCast]; omega
  rw [hr, List.map_map] at hxs
  dsimp only at g
  have h00 : val (0.0 : α) = .fin 0 := by
    show val (PyFloat.lit _ : α) = _
    rw [val_lit, show (((OfScientific.ofScientific 0 true 1 : ℚ)) : ℝ) = 0 by norm_num]
    exact rnd_simple simple_zero
  obtain ⟨hV, hN⟩ := sd_const D R.bad c xs (fun x hx hg => by
      rw [hxs] at hx
      obtain ⟨k, hk, rfl⟩ := List.mem_map.mp hx
      exact hc k (List.mem_range.mp hk) hg) ⟨0, 0.0, 0.0, 0.0⟩ (by rw [hxs]; simpa using hbig) h00 h00 (.inl rfl)
  have hlen : (xs.filter (fun x => x !=. R.bad)).length = ((List.range (2 * h + 1)).filter (fun k => R.dp.mem (i - h + k : Nat) !=. R.bad)).length := by
    rw [hxs, List.filter_map, List.length_map]; rfl
  dsimp only at hN
  rw [hlen, Nat.zero_add] at hN
  have hle : ((List.range (2 * h + 1)).filter (fun k => R.dp.mem (i - h + k : Nat) !=. R.bad)).length ≤ 2 ^ 24 :=
    (List.length_filter_le _ _).trans (by simpa using hbig)
  rw [hN] at g
  set m := ((List.range (2 * h + 1)).filter (fun k => R.dp.mem (i - h + k : Nat) !=. R.bad)).length with hmdef
  rw [if_pos (by exact_mod_cast hcount), if_neg (by
    have : m ≠ 0 := by omega
    simp [this])] at g
  rw [← Except.ok.inj g, val_f32, val_sqrt]
  have hms : Simple (m : ℝ) := by
    have := simple_int (m : ℤ) (by rw [abs_of_nonneg (by omega)]; exact_mod_cast hle)
    simpa using this
  have hmw : val (D.w (PyFloat.ofNat m : α)) = .fin (m : ℝ) := w_simple D hms (by rw [vnat, rnd_simple hms])
  have hm0 : (m : ℝ) ≠ 0 := by have : m ≠ 0 := by omega
                               exact_mod_cast this
  rw [w_simple D simple_zero (by
    rw [vdiv _ _ (by rw [hmw]; simpa using hm0), hmw, hV, XR.fdiv hm0, zero_div, rnd_simple simple_zero])]
  simp only [XR.sqrt, Real.sqrt_zero]
  rw [if_pos (show (0 : ℝ) ≤ 0 by norm_num)]
  rw [rnd_simple simple_zero, rnd32_simple simple_zero]

/-- five gates of phase 0.1, one of them bad; thresholds 12 -/
noncomputable def sdRay : Ray Binary64 where
  n := 5
  dp := ⟨5, fun i => if i = 3 then -32768 else f32 0.1⟩
  dz := ⟨5, fun _ => 50⟩
  rng := ⟨5, fun i => PyFloat.ofInt i⟩
  thsd := ⟨5, fun _ => 12⟩
  nf := 0
  bad := -32768
  order := 4
  gain := 1
  coef := ⟨5, fun _ => 1⟩
  stdGate := 3
  nadp0 := 0

-- 0.1 is not a float32: what comes back is 0.1 rounded, and rounded once more it is the same
set_option maxRecDepth 100000 in
example : ((calcKdpRayFir cython true sdRay).toOption.map (fun o => o.dp.map (fun v => (v ==. 0.1, f32 v ==. v, v ==. f32 0.1)))) =
    some [(false, true, true), (false, true, true), (false, true, true), (false, true, false), (false, true, true)] := by decide +kernel

-- the standard deviation of equal phases is exactly 0 where at least half of the window is good, in both kernels
set_option maxRecDepth 100000 in
example : ((calcKdpRayFir cython true sdRay).toOption.map (fun o => o.sd.map (fun v => v ==. 0))) = some [false, true, true, true, false] ∧
    ((calcKdpRayFir fortran true sdRay).toOption.map (fun o => o.sd.map (fun v => v ==. 0))) = some [false, true, true, true, false] := by decide +kernel
end sd

/-! ## C17 in floating point -/
section c17

/-- Three gates; all coefficients and the memory around them are 1 (so that the shifted coefficients of the Cython kernel do not matter), reflectivity
is missing everywhere, and the standard deviation is the default 100 (so that the kernels differ only in their precision). -/
noncomputable def precRay : Ray Binary64 where
  n := 3
  dp := ⟨3, fun i => if i = 0 then 1 else f32 (1 / 16777216)⟩
  dz := ⟨3, fun _ => -32768⟩
  rng := ⟨3, fun i => PyFloat.ofInt i⟩
  thsd := ⟨3, fun _ => 100⟩
  nf := 1
  bad := -32768
  order := 2
  gain := 1
  coef := ⟨3, fun _ => 1⟩
  stdGate := 11
  nadp0 := 0

/-- **C17, the part that fails because of precision**: with equal coefficients everywhere and no KDP to compute, do both kernels return the same? -/
def C17RoundingFull : Prop := ∀ R : Ray Binary64, ApiCall R → (∀ i j, R.coef.mem i = R.coef.mem j) → (∀ i, R.dz.mem i = R.bad) →
  calcKdpRayFir cython false R = calcKdpRayFir fortran false R

set_option maxRecDepth 100000 in
theorem prec_check : ((calcKdpRayFir cython false precRay).toOption.map (fun o => (o.kd, o.dp.getD 1 0 ==. 1, o.dp.getD 1 0 >. 1))) =
      some ([-32768, -32768, -32768], false, true) ∧
    ((calcKdpRayFir fortran false precRay).toOption.map (fun o => (o.kd, o.dp.getD 1 0 ==. 1, o.dp.getD 1 0 >. 1))) =
      some ([-32768, -32768, -32768], true, false) := by decide +kernel

/-- **C17 fails in floating point even where the kernels agree exactly on real numbers**: the Cython kernel adds the products of the filter in double
precision, the Fortran kernel in single precision, so `1 + 2^-24 + 2^-24` is above 1 in one and exactly 1 in the other. -/
theorem C17_rounding_full_false : ¬ C17RoundingFull := by
  intro h
  have := h precRay (by constructor <;> simp [precRay]) (fun _ _ => rfl) (fun _ => rfl)
  obtain ⟨a, b⟩ := prec_check
  rw [this, b] at a
  simp at a
end c17
end Csu.Kdp
