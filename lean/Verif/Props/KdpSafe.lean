import Verif.Lemmas.Kdp
import Verif.QFloat
import Verif.XReal
/-!
# C07, C08, C13: memory safety and determinism of the KDP kernel

`calcKdpRayFir D true R` is the kernel with every array access checked: it returns `.error (.outOfBounds ..)` exactly
when the code (compiled with `boundscheck=False`) would touch memory outside an array.  `calcKdpRayFir D false R` is what
the compiled code does.  All theorems here hold for every arithmetic (`PyFloat α` has no laws).
-/
namespace Csu.Kdp
open Csu PyFloat
variable {α : Type} [PyFloat α]

/-- The call `calc_kdp_bringi` makes: arrays of (at least) `n` gates and, from `get_fir`, an even order with `order + 1`
coefficients. -/
structure ApiCall (R : Ray α) : Prop where
  dp : R.n ≤ R.dp.len
  dz : R.n ≤ R.dz.len
  rng : R.n ≤ R.rng.len
  thsd : R.n ≤ R.thsd.len
  even : R.order % 2 = 0
  coef : R.coef.len = R.order + 1

/-- The kernel touches memory outside an array. -/
def Escapes (D : Dialect α) (R : Ray α) : Prop := ∃ a i, calcKdpRayFir D true R = .error (.outOfBounds a i)

/-- C07, full statement: no call escapes. -/
def C07Full (α : Type) [PyFloat α] : Prop := ∀ R : Ray α, ApiCall R → ¬ Escapes cython R

/-- An array given by a list, with content `g` everywhere else. -/
def arr (l : List α) (g : α) : Buf α := ⟨l.length, fun i => if 0 ≤ i then l.getD i.toNat g else g⟩

/-- The smallest witness: three gates, filter order 2, everything good. `g` is the content of the memory around the
arrays. -/
def tiny (g : QF) : Ray QF :=
  { n := 3, dp := arr [1, 1, 1] g, dz := arr [50, 50, 50] g, rng := arr [1, 2, 3] g, thsd := arr [12, 12, 12] g,
    nf := 1, bad := QF.q (-32768), order := 2, gain := 1, coef := arr [0.25, 0.5, 0.25] g, stdGate := 1, nadp0 := 0 }

theorem tiny_api (g : QF) : ApiCall (tiny g) := by
  constructor <;> simp [tiny, arr]

/-- **C07 is false**: the filter reads `fir_coeff[order + 1]`, one past the end. -/
theorem C07_full_false : ¬ C07Full QF := by
  intro h
  refine h (tiny 0) (tiny_api 0) ⟨"fir_coeff", 3, ?_⟩
  decide +kernel

/-- **C07, what holds.**  With one coefficient more than `get_fir` makes (or the Fortran indexing), and windows that fit in
the 500-element work buffers, no ray, threshold, reflectivity or number of passes makes the kernel leave its arrays. -/
theorem C07_no_escape_partial (D : Dialect α) (R : Ray α) (h : Fits D R) : ¬ Escapes D R := by
  rintro ⟨a, i, e⟩
  exact (safe_calc h).noOob a i e

/-- the hypotheses are met: order 20 (the default), 1000 gates, 22 coefficients -/
example (m : Int → α) : Fits (cython : Dialect α)
    { n := 1000, dp := ⟨1000, m⟩, dz := ⟨1000, m⟩, rng := ⟨1000, m⟩, thsd := ⟨1000, m⟩, nf := 3, bad := nan,
      order := 20, gain := 1, coef := ⟨22, m⟩, stdGate := 11, nadp0 := 0 } := by
  constructor <;> simp [cython, Ray.half, workSize]

/-- The same call with the coefficients `get_fir` makes is in bounds for the Fortran kernel. -/
theorem C87_fortran_no_escape (R : Ray α) (h : ApiCall R) (ho : R.order ≤ 332) (hn : R.nadp0 ≤ 499) :
    ¬ Escapes fortran R := by
  have e := h.even
  have hc := h.coef
  refine C07_no_escape_partial _ R ⟨h.dp, h.dz, h.rng, h.thsd, ?_, ?_, ?_, ?_⟩
  · simp only [fortran, Ray.half]; omega
  · simp only [Ray.half, workSize]; omega
  · right; simp only [fortran, Ray.half, workSize]; omega
  · simp [fortran]

example : ApiCall (tiny 0) ∧ (tiny 0).order ≤ 332 := ⟨tiny_api 0, by decide⟩

/-! ## Every filtered gate over-reads -/

/-- with `order + 1` coefficients and the Cython indexing the filter sum always leaves the coefficient array -/
theorem firSum_escapes (R : Ray α) (hc : R.coef.len = R.order + 1) (he : R.order % 2 = 0) (z : Buf α) (i : Int) (A : α) :
    firSum cython true R z (i - R.half) (rangeI (i - R.half) (i + R.half + 1)) ≠ .ok A := by
  intro e
  obtain ⟨s, r, h⟩ := foldlM_all_ok (x := i + R.half) e (mem_rangeI.mpr ⟨by omega, by omega⟩)
  obtain ⟨c, h1, -⟩ := bind_ok h
  simp only [cython, rd, Buf.has, hc, Ray.half] at h1
  split at h1
  · cases h1
  · rename_i hb
    simp at hb
    omega

theorem firGate_keeps (R : Ray α) (hc : R.coef.len = R.order + 1) (he : R.order % 2 = 0) (sd : Buf α)
    (yz r : Buf α × Buf α) (i : Int) (e : firGate cython true R sd yz i = .ok r) : r.1 = yz.1 := by
  unfold firGate at e
  obtain ⟨g, -, e⟩ := bind_ok e
  split at e
  · dsimp only at e
    obtain ⟨pts, -, e⟩ := bind_ok e
    split at e
    · obtain ⟨z, -, e⟩ := bind_ok e
      obtain ⟨A, h, -⟩ := bind_ok e
      exact absurd h (firSum_escapes R hc he z i A)
    · cases e; rfl
  · cases e; rfl

theorem firPasses_keeps (R : Ray α) (hc : R.coef.len = R.order + 1) (he : R.order % 2 = 0) (sd : Buf α) (k : Nat)
    (hk : 0 < k) (yz r : Buf α × Buf α) (e : firPasses cython true R sd k yz = .ok r) : r.2 = yz.1 := by
  induction k generalizing yz with
  | zero => omega
  | succ k ih =>
    unfold firPasses firPass at e
    obtain ⟨v, h1, h2⟩ := bind_ok e
    obtain ⟨w, h3, h4⟩ := bind_ok h1
    cases h4
    have hw : w.1 = yz.1 := foldlM_inv (I := fun s : Buf α × Buf α => s.1 = yz.1) rfl
      (fun s i r _ hs hr => (firGate_keeps R hc he sd s r i hr).trans hs) h3
    rcases Nat.eq_zero_or_pos k with rfl | hk'
    · cases h2; exact hw
    · rw [ih hk' _ h2]; exact hw

theorem getD_replicate_bad (n : Nat) (b d : α) {i : Nat} (h : i < n) : (List.replicate n b).getD i d = b := by
  simp [h]

/-- **The over-read is systematic**: a call with `get_fir`'s coefficients and at least one pass that stays in bounds is one
in which no gate was filtered: its filtered phase is `bad` everywhere.  In other words, every call that filters a gate
reads outside `fir_coeff`. -/
theorem C07_filtering_escapes (R : Ray α) (h : ApiCall R) (hnf : 0 < R.nf) (out : RayOut α)
    (e : calcKdpRayFir cython true R = .ok out) : out.dp = List.replicate R.n R.bad := by
  unfold calcKdpRayFir at e
  obtain ⟨z, -, e⟩ := bind_ok e
  obtain ⟨sd, -, e⟩ := bind_ok e
  obtain ⟨yz, h1, e⟩ := bind_ok e
  obtain ⟨kd, -, e⟩ := bind_ok e
  cases e
  have := firPasses_keeps R h.coef h.even _ _ hnf _ _ h1
  dsimp only
  rw [this]
  apply List.ext_getElem
  · simp [gates, rangeI]
  · intro i h1 h2
    have hi : i < R.n := by simpa using h2
    simp [gates, rangeI, ofList, hi]

/-- such calls exist: a threshold of −1 rejects every gate -/
example : ∃ out, calcKdpRayFir cython true { tiny 0 with thsd := arr [QF.q (-1), QF.q (-1), QF.q (-1)] 0 } = .ok out := by
  refine ⟨⟨[QF.q (-32768), QF.q (-32768), QF.q (-32768)], [QF.q (-32768), QF.q (-32768), QF.q (-32768)], [0, 0, 0]⟩, ?_⟩
  decide +kernel

/-! ## The 500-element work buffers overflow for large orders -/

theorem push_len {chk : Bool} {acc r : List (α × α)} {p : α × α} (h : push chk acc p = .ok r) :
    r.length = acc.length + 1 := by
  unfold push at h; split at h
  · cases h
  · cases h; simp

theorem push_lt {acc r : List (α × α)} {p : α × α} (h : push true acc p = .ok r) : acc.length < workSize := by
  unfold push at h; split at h
  · cases h
  · rename_i h1; simpa using h1

/-- if every gate is good, collecting more than 500 of them cannot succeed -/
theorem collect_overflow (R : Ray α) (sd z : Buf α) (js : List Int)
    (hg : ∀ j ∈ js, good true R sd z j = .ok true) (hl : workSize < js.length) (r : List (α × α)) :
    collect true R sd z js ≠ .ok r := by
  intro e
  unfold collect at e
  have key : ∀ (js : List Int) (acc r : List (α × α)), (∀ j ∈ js, good true R sd z j = .ok true) →
      acc.length ≤ workSize →
      js.foldlM (fun acc j => do
        if ← good true R sd z j then do
          let v ← rd true "z" z j
          let r ← rd true "rng" R.rng j
          push true acc (r, v)
        else .ok acc) acc = Except.ok r → r.length = acc.length + js.length ∧ r.length ≤ workSize := by
    intro js
    induction js with
    | nil => intro acc r _ ha h; cases h; exact ⟨by simp, ha⟩
    | cons j js ih =>
      intro acc r hg ha h
      rw [List.foldlM_cons, hg j (by simp)] at h
      obtain ⟨v, h1, h2⟩ := bind_ok h
      obtain ⟨t, ht, h1⟩ := bind_ok h1
      cases ht
      simp only [if_true] at h1
      obtain ⟨z1, -, h1⟩ := bind_ok h1
      obtain ⟨r1, -, h1⟩ := bind_ok h1
      have l1 := push_len h1
      have l2 := push_lt h1
      have := ih v r (fun k hk => hg k (by simp [hk])) (by omega) h2
      simp; omega
  have := key js [] r hg (by simp) e
  simp at this; omega

/-- **The work buffers overflow**: when the order is at least 500 and every gate passes quality control, the first
filtered gate writes past the end of the 500-element buffers — for any coefficients, any arithmetic, both kernels. -/
theorem C07_work_buffers_overflow (D : Dialect α) (R : Ray α) (h : ApiCall R) (hnf : 0 < R.nf) (ho : 500 ≤ R.order)
    (hn : R.order < R.n) (s : Int → α) (hs : ∀ i : Int, 0 ≤ i → i < R.n → sdAt D true R i = .ok (s i))
    (hq : ∀ i : Int, 0 ≤ i → i < R.n → (s i <=. R.thsd.mem i) = true ∧ (R.dp.mem i !=. R.bad) = true) :
    ∀ out, calcKdpRayFir D true R ≠ .ok out := by
  intro out e
  have hdp := h.dp
  have hts := h.thsd
  have he := h.even
  have h2 : R.half * 2 = R.order := by simp only [Ray.half]; omega
  unfold calcKdpRayFir at e
  rw [mapM_ok_map (g := R.dp.mem) (fun i hi => by
      have := mem_gates.mp hi; exact rd_ok this.1 (by omega) _ _),
    mapM_ok_map (g := s) (fun i hi => by have := mem_gates.mp hi; exact hs i this.1 this.2)] at e
  obtain ⟨z, hz, e⟩ := bind_ok e
  cases hz
  obtain ⟨z, hz, e⟩ := bind_ok e
  cases hz
  obtain ⟨yz, h1, -⟩ := bind_ok e
  obtain ⟨k, hk⟩ : ∃ k, R.nf = k + 1 := ⟨R.nf - 1, by omega⟩
  rw [hk] at h1
  unfold firPasses firPass at h1
  obtain ⟨v, h1, -⟩ := bind_ok h1
  obtain ⟨w, h1, -⟩ := bind_ok h1
  -- the first gate
  have hr : ∃ l, rangeI R.half ((R.n : Int) - R.half) = (R.half : Int) :: l := by
    unfold rangeI
    obtain ⟨m, hm⟩ : ∃ m, ((R.n : Int) - R.half - R.half).toNat = m + 1 := ⟨R.n - 2 * R.half - 1, by omega⟩
    rw [hm, List.range_succ_eq_map]
    exact ⟨_, by simp; rfl⟩
  obtain ⟨l, hl⟩ := hr
  rw [hl, List.foldlM_cons] at h1
  obtain ⟨u, h1, -⟩ := bind_ok h1
  have hg : ∀ j : Int, 0 ≤ j → j < R.n → good true R (ofList R.n ((gates R.n).map s)) (ofList R.n ((gates R.n).map R.dp.mem)) j
      = .ok true := by
    intro j h0 hj
    unfold good
    rw [rd_ok h0 (by simpa [ofList] using hj), rd_ok h0 (by omega), rd_ok h0 (by simpa [ofList] using hj),
      ofList_map_gates _ _ h0 hj, ofList_map_gates _ _ h0 hj]
    show (if (s j <=. R.thsd.mem j) = true then Except.ok (R.dp.mem j !=. R.bad) else Except.ok false) = _
    rw [if_pos (hq j h0 hj).1, (hq j h0 hj).2]
  unfold firGate at h1
  rw [hg _ (by omega) (by omega)] at h1
  obtain ⟨t, ht, h1⟩ := bind_ok h1
  cases ht
  simp only [if_true] at h1
  obtain ⟨pts, h1, -⟩ := bind_ok h1
  refine collect_overflow R _ _ _ (fun j hj => ?_) ?_ pts h1
  · have := mem_rangeI.mp hj
    exact hg j (by omega) (by omega)
  · rw [length_rangeI]; simp only [workSize]; omega

/-- A long ray of constant phase with loose thresholds. -/
def longRay (order : Nat) : Ray QF :=
  { n := order + 1, dp := ⟨order + 1, fun _ => 1⟩, dz := ⟨order + 1, fun _ => 50⟩, rng := ⟨order + 1, fun i => ofInt i⟩,
    thsd := ⟨order + 1, fun _ => 12⟩, nf := 1, bad := QF.q (-32768), order := order, gain := 1,
    coef := ⟨order + 1, fun _ => 1⟩, stdGate := 1, nadp0 := 0 }

/-- the hypotheses are met by a ray of 601 good gates and order 600 (3 km window, 5 m gates), in both kernels -/
example (D : Dialect QF) : ∀ out, calcKdpRayFir D true (longRay 600) ≠ .ok out := by
  refine C07_work_buffers_overflow D (longRay 600) (by constructor <;> simp [longRay]) (by decide) (by decide) (by decide)
    (fun _ => 0) (fun i h0 h1 => ?_) (fun i _ _ => ⟨show ((0 : QF) <=. 12) = true by decide +kernel, show ((1 : QF) !=. QF.q (-32768)) = true by decide +kernel⟩)
  have hh : (longRay 600).halfStd = 0 := by decide
  have h2 : rangeI (i - 0) (i + 0 + 1) = [i] := by simp [rangeI, List.range_succ]
  unfold sdAt
  rw [hh, if_pos ⟨by omega, by omega⟩, h2]
  simp only [List.mapM_cons, List.mapM_nil]
  rw [rd_ok h0 (by simpa [longRay] using h1)]
  show (if ((sdStep D (QF.q (-32768)) ⟨0, 0.0, 0.0, 0.0⟩ (1 : QF)).N : Int) > 0 then
      if (D.raises && (sdStep D (QF.q (-32768)) ⟨0, 0.0, 0.0, 0.0⟩ (1 : QF)).N == 0) = true then Except.error PyErr.zeroDivisionError
      else Except.ok (f32 (sqrt (D.w ((sdStep D (QF.q (-32768)) ⟨0, 0.0, 0.0, 0.0⟩ (1 : QF)).V /
        D.w (PyFloat.ofNat (sdStep D (QF.q (-32768)) ⟨0, 0.0, 0.0, 0.0⟩ (1 : QF)).N))))) else Except.ok 100.0) = .ok 0
  have hw : ∀ (E : Dialect QF) (x : QF), E.w x = x := by intro E x; unfold Dialect.w; split <;> rfl
  have hs : sdStep D = sdStep cython := by
    funext b s x; unfold sdStep; simp only [hw]
  rw [hs]
  simp only [hw D]
  cases D.raises <;> decide +kernel

/-! # C08: the output is a function of the arguments -/

/-- C08, full statement: two calls with equal arguments return the same, whatever else is in memory. -/
def C08Full (α : Type) [PyFloat α] : Prop :=
  ∀ R R' : Ray α, ApiCall R → SameArgs R R' → calcKdpRayFir cython false R = calcKdpRayFir cython false R'

theorem arr_same (l : List α) (g g' : α) : SameArr (arr l g) (arr l g') := by
  refine ⟨rfl, fun i h0 h1 => ?_⟩
  have : i.toNat < l.length := by simp [arr] at h1; omega
  simp [arr, h0, this]

theorem tiny_same (g g' : QF) : SameArgs (tiny g) (tiny g') := by
  constructor <;> first | rfl | exact arr_same _ _ _

/-- **C08 is false**: the filtered phase of the middle gate depends on the memory after `fir_coeff`. -/
theorem C08_full_false : ¬ C08Full QF := by
  intro h
  have := h _ _ (tiny_api 0) (tiny_same 0 1)
  revert this
  decide +kernel

/-- a second way in which C08 fails, without any filtering: a NaN reflectivity at the first gate makes the kernel use an
uninitialised window size -/
theorem C08_full_false_uninitialised : ∃ R R' : Ray QF, ApiCall R ∧ SameArgs R R' ∧ ¬ Escapes cython R ∧
    ¬ Escapes cython R' ∧ calcKdpRayFir cython false R ≠ calcKdpRayFir cython false R' := by
  refine ⟨{ tiny 0 with dz := arr [QF.nan, QF.nan, QF.nan] 0, nf := 0, dp := arr [1, 2, 4] 0, nadp0 := 2 },
    { tiny 0 with dz := arr [QF.nan, QF.nan, QF.nan] 0, nf := 0, dp := arr [1, 2, 4] 0, nadp0 := 0 }, ?_, ?_, ?_, ?_, ?_⟩
  · constructor <;> simp [tiny, arr]
  · constructor <;> first | rfl | exact arr_same _ _ _
  · rintro ⟨a, i, h⟩
    have e : calcKdpRayFir cython true { tiny 0 with dz := arr [QF.nan, QF.nan, QF.nan] 0, nf := 0, dp := arr [1, 2, 4] 0, nadp0 := 2 }
      = .ok ⟨[QF.q (-32768), QF.q (1 / 2), QF.q (-32768)], [1, 2, 4], [0, 0, 0]⟩ := by decide +kernel
    rw [e] at h; cases h
  · rintro ⟨a, i, h⟩
    have e : calcKdpRayFir cython true { tiny 0 with dz := arr [QF.nan, QF.nan, QF.nan] 0, nf := 0, dp := arr [1, 2, 4] 0, nadp0 := 0 }
      = .ok ⟨[QF.q (-32768), QF.q (-32768), QF.q (-32768)], [1, 2, 4], [0, 0, 0]⟩ := by decide +kernel
    rw [e] at h; cases h
  · decide +kernel

/-- **C08, what holds**: when the arrays are as large as the kernel assumes and every reflectivity is bad or a number
(falls in one of the three classes), two calls with equal arguments return the same result or the same exception. -/
theorem C08_deterministic_partial (D : Dialect α) (R R' : Ray α) (hf : Fits D { R with nadp0 := 0 }) (hs : SameArgs R R')
    (hc : Classified R) : calcKdpRayFir D false R = calcKdpRayFir D false R' := by
  have no := fun a i => (safe_calc hf).noOob a i
  have key : ∀ S, SameArgs R S → calcKdpRayFir D true { R with nadp0 := 0 } = calcKdpRayFir D false S := by
    intro S h
    rcases sim_calc (R := { R with nadp0 := 0 }) (R' := S) ⟨h.n, h.dp, h.dz, h.rng, h.thsd, h.coef, h.nf, h.bad, h.order,
      h.gain, h.stdGate⟩ (.inr hc) D with ⟨a, i, e⟩ | e
    · exact absurd e (no a i)
    · exact e
  have hr : SameArgs R R := ⟨rfl, ⟨rfl, fun _ _ _ => rfl⟩, ⟨rfl, fun _ _ _ => rfl⟩, ⟨rfl, fun _ _ _ => rfl⟩,
    ⟨rfl, fun _ _ _ => rfl⟩, ⟨rfl, fun _ _ _ => rfl⟩, rfl, rfl, rfl, rfl, rfl⟩
  rw [← key R hr, key R' hs]

/-- the hypotheses are met by the witness with one more coefficient -/
example : Fits cython { { tiny 0 with coef := arr [0, 0.25, 0.5, 0.25] 0 } with nadp0 := 0 } ∧
    Classified { tiny 0 with coef := arr [0, 0.25, 0.5, 0.25] 0 } := by
  constructor
  · constructor <;> simp [tiny, arr, cython, Ray.half, workSize]
  · intro i h0 h1
    have h1 : i < 3 := h1
    have : i = 0 ∨ i = 1 ∨ i = 2 := by omega
    rcases this with rfl | rfl | rfl <;> right <;> left <;> decide +kernel

/-- The Fortran kernel on the calls `calc_kdp_bringi` makes, orders up to 332. -/
theorem C87_fortran_deterministic (R R' : Ray α) (h : ApiCall R) (ho : R.order ≤ 332) (hs : SameArgs R R')
    (hc : Classified R) : calcKdpRayFir fortran false R = calcKdpRayFir fortran false R' := by
  have e := h.even
  have hl := h.coef
  refine C08_deterministic_partial _ R R' ⟨h.dp, h.dz, h.rng, h.thsd, ?_, ?_, ?_, ?_⟩ hs hc
  · simp only [fortran, Ray.half]; omega
  · simp only [Ray.half, workSize]; omega
  · right; simp only [fortran, Ray.half, workSize]; omega
  · simp [fortran]

/-! # C13, C86: the window depends only on the gate's own reflectivity -/

/-- C86, full statement, as an observable fact: changing the reflectivity at other gates leaves the KDP of a gate
unchanged. -/
def C86Full (α : Type) [PyFloat α] : Prop :=
  ∀ (R : Ray α) (dz' : Buf α) (out out' : RayOut α) (i : Nat), dz'.mem i = R.dz.mem i →
    calcKdpRayFir cython true R = .ok out → calcKdpRayFir cython true { R with dz := dz' } = .ok out' →
    out.kd[i]? = out'.kd[i]?

/-- seven gates, filter order 4, no filtering; the reflectivity of gate 3 is NaN -/
def stale (before : QF) : Ray QF :=
  { n := 7, dp := arr [1, 2, 4, 8, 16, 32, 64] 0, dz := arr [before, before, before, QF.nan, 50, 50, 50] 0,
    rng := arr [1, 2, 3, 4, 5, 6, 7] 0, thsd := arr [12, 12, 12, 12, 12, 12, 12] 0, nf := 0, bad := QF.q (-32768),
    order := 4, gain := 1, coef := arr [0, 0, 1, 0, 0] 0, stdGate := 1, nadp0 := 0 }

/-- **C86 is false**: with a NaN reflectivity the window size of the previous gate is used. -/
theorem C86_full_false : ¬ C86Full QF := by
  intro h
  have hk : (calcKdpRayFir cython true (stale 50)).map (fun o => o.kd[3]?) ≠
      (calcKdpRayFir cython true (stale 30)).map (fun o => o.kd[3]?) := by decide +kernel
  have h1 : (calcKdpRayFir cython true (stale 50)).isOk = true := by decide +kernel
  have h2 : (calcKdpRayFir cython true (stale 30)).isOk = true := by decide +kernel
  have he : stale 30 = { stale 50 with dz := (stale 30).dz } := rfl
  cases e1 : calcKdpRayFir cython true (stale 50) with
  | error e => rw [e1] at h1; cases h1
  | ok out =>
    cases e2 : calcKdpRayFir cython true (stale 30) with
    | error e => rw [e2] at h2; cases h2
    | ok out' =>
      have := h (stale 50) (stale 30).dz out out' 3 rfl e1 (he ▸ e2)
      rw [e1, e2] at hk
      exact hk (by simpa [Except.map] using this)

/-- **C13**: when the gate's reflectivity is bad or falls in one of the three classes, neither the reflectivity
of the other gates nor the initial content of `nadp` has any influence on its KDP.  Both kernels. -/
theorem C13_own_reflectivity (D : Dialect α) (chk : Bool) (R : Ray α) (dz' : Buf α) (m0 : Int)
    (out out' : RayOut α) (i : Nat) (hi : dz'.mem i = R.dz.mem i)
    (hc : (R.dz.mem i ==. R.bad) = true ∨ (R.dz.mem i >=. 45.0) = true ∨
      ((R.dz.mem i >=. 35.0) && (R.dz.mem i <. 45.0)) = true ∨ (R.dz.mem i <. 35.0) = true)
    (e : calcKdpRayFir D chk R = .ok out) (e' : calcKdpRayFir D chk { R with dz := dz', nadp0 := m0 } = .ok out') :
    out.kd[i]? = out'.kd[i]? := by
  obtain ⟨yz, r⟩ := calc_run e
  obtain ⟨yz', r'⟩ := calc_run e'
  have hsd : out.sd = out'.sd := by
    apply List.ext_getElem (by rw [r.sdLen, r'.sdLen])
    intro j h1 h2
    have a := r.sd j h1
    have b := r'.sd j h2
    have : sdAt D chk { R with dz := dz', nadp0 := m0 } j = sdAt D chk R j := rfl
    rw [this, a] at b
    exact Except.ok.inj b
  have hyz : yz = yz' := by
    have a := r.passes
    have b := r'.passes
    have c : ∀ sd k yz, firPasses D chk { R with dz := dz', nadp0 := m0 } sd k yz = firPasses D chk R sd k yz := by
      intro sd k yz
      induction k generalizing yz with
      | zero => rfl
      | succ k ih =>
        unfold firPasses
        have : firPass D chk { R with dz := dz', nadp0 := m0 } sd yz = firPass D chk R sd yz := rfl
        rw [this]
        simp only [ih]
    rw [c, ← hsd] at b
    exact Except.ok.inj (a.symm.trans b)
  subst hyz
  have l1 := r.kdLen
  have l2 : out'.kd.length = R.n := r'.kdLen
  by_cases hin : i < R.n
  · have h1 : i < out.kd.length := by omega
    have h2 : i < out'.kd.length := by omega
    obtain ⟨m1, m2, g⟩ := r.kd i h1
    obtain ⟨m3, m4, g'⟩ := r'.kd i h2
    rw [List.getElem?_eq_getElem h1, List.getElem?_eq_getElem h2]
    -- both reads of dz succeeded
    have hrd : ∀ (S : Ray α) (m : Int) (p : α × Int), kdpGate D chk S yz.2 m i = .ok p →
        rd chk "dz" S.dz i = .ok (S.dz.mem i) := by
      intro S m p hp
      unfold kdpGate at hp
      obtain ⟨d, hd, -⟩ := bind_ok hp
      rw [hd, rd_val hd]
    have e1 := hrd _ _ _ g
    have e2 := hrd _ _ _ g'
    have e3 : kdpGate D chk { R with dz := dz', nadp0 := m0 } yz.2 m3 i = kdpGate D chk R yz.2 m3 i := by
      unfold kdpGate
      show (rd chk "dz" dz' i >>= _) = _
      rw [show rd chk "dz" dz' i = rd chk "dz" R.dz i by rw [e1, ← hi]; exact e2]
      rfl
    rw [e3] at g'
    have := kdpGate_classified R D chk yz.2 hc m1 m3
    rw [g, g'] at this
    simp [Except.map] at this
    rw [this]
  · rw [List.getElem?_eq_none (by omega), List.getElem?_eq_none (by omega)]

/-- the hypotheses are met: gate 4 of the ray above has reflectivity 50 -/
example : ((stale 50).dz.mem 4 >=. 45.0) = true ∧ (stale 30).dz.mem 4 = (stale 50).dz.mem 4 ∧
    (calcKdpRayFir cython true (stale 50)).isOk = true ∧ (calcKdpRayFir cython true (stale 30)).isOk = true := by
  decide +kernel

end Csu.Kdp
