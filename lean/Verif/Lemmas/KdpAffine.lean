import Verif.Props.KdpStd
import Verif.Lemmas.KdpFir
/-! Two runs of the Cython kernel on inputs that differ by a change of units. -/
namespace Csu.Kdp
open Csu PyFloat XR KdpSpec

/-! ## The least-squares line under a change of units -/

/-- abscissae `r ↦ mu r + d`, ordinates `x ↦ lam x + c` -/
def chg (lam c mu d : ℝ) (p : ℝ × ℝ) : ℝ × ℝ := (mu * p.1 + d, lam * p.2 + c)

theorem chg_sums (lam c mu d : ℝ) (g : List (ℝ × ℝ)) :
    ((g.map (chg lam c mu d)).map (·.1)).sum = mu * (g.map (·.1)).sum + g.length * d ∧
    ((g.map (chg lam c mu d)).map (·.2)).sum = lam * (g.map (·.2)).sum + g.length * c ∧
    ((g.map (chg lam c mu d)).map (fun p => p.1 * p.1)).sum =
      mu ^ 2 * (g.map (fun p => p.1 * p.1)).sum + 2 * mu * d * (g.map (·.1)).sum + g.length * d ^ 2 ∧
    ((g.map (chg lam c mu d)).map (fun p => p.1 * p.2)).sum =
      mu * lam * (g.map (fun p => p.1 * p.2)).sum + mu * c * (g.map (·.1)).sum + d * lam * (g.map (·.2)).sum + g.length * (d * c) := by
  induction g with
  | nil => simp
  | cons p g ih =>
    obtain ⟨h1, h2, h3, h4⟩ := ih
    simp only [List.map_cons, List.sum_cons, h1, h2, h3, h4, List.length_cons, chg]
    refine ⟨?_, ?_, ?_, ?_⟩ <;> push_cast <;> ring

theorem chg_det (lam c mu d : ℝ) (g : List (ℝ × ℝ)) : detR (g.map (chg lam c mu d)) = mu ^ 2 * detR g := by
  obtain ⟨h1, h2, h3, h4⟩ := chg_sums lam c mu d g
  unfold detR
  rw [h1, h3, List.length_map]; ring

theorem chg_slope (lam c : ℝ) {mu : ℝ} (hmu : mu ≠ 0) (d : ℝ) (g : List (ℝ × ℝ)) (hg : detR g ≠ 0) :
    slopeR (g.map (chg lam c mu d)) = lam / mu * slopeR g ∧
    interR (g.map (chg lam c mu d)) = lam * interR g + c - lam / mu * slopeR g * d := by
  have hdet := chg_det lam c mu d g
  obtain ⟨h1, h2, h3, h4⟩ := chg_sums lam c mu d g
  unfold slopeR interR
  rw [hdet, h1, h2, h3, h4, List.length_map]
  have e : detR g = g.length * (g.map (fun p => p.1 * p.1)).sum - (g.map (·.1)).sum ^ 2 := rfl
  constructor
  · field_simp; ring_nf
  · rw [eq_sub_iff_add_eq]
    field_simp
    rw [e]; ring_nf

/-! ## Relational reasoning on `Except` -/

/-- both runs fail in the same way, or both succeed with related results -/
inductive ERel {β γ : Type} (P : β → γ → Prop) : Except PyErr β → Except PyErr γ → Prop
  | err (e : PyErr) : ERel P (.error e) (.error e)
  | ok {v : β} {w : γ} (h : P v w) : ERel P (.ok v) (.ok w)

theorem ERel.bind {β γ β' γ' : Type} {P : β → γ → Prop} {Q : β' → γ' → Prop} {x : Except PyErr β} {y : Except PyErr γ}
    {f : β → Except PyErr β'} {g : γ → Except PyErr γ'} (h : ERel P x y) (hf : ∀ v w, P v w → ERel Q (f v) (g w)) :
    ERel Q (x >>= f) (y >>= g) := by
  cases h with
  | err e => exact .err e
  | ok h => exact hf _ _ h

theorem ERel.foldlM {β σ τ : Type} {P : σ → τ → Prop} {f : σ → β → Except PyErr σ} {g : τ → β → Except PyErr τ}
    {l : List β} {s : σ} {t : τ} (h0 : P s t) (h : ∀ x ∈ l, ∀ s t, P s t → ERel P (f s x) (g t x)) :
    ERel P (l.foldlM f s) (l.foldlM g t) := by
  induction l generalizing s t with
  | nil => exact .ok h0
  | cons x l ih =>
    rw [List.foldlM_cons, List.foldlM_cons]
    exact (h x (by simp) s t h0).bind fun v w hvw => ih hvw fun y hy => h y (by simp [hy])

theorem ERel.mapM {β γ δ : Type} {P : γ → δ → Prop} {f : β → Except PyErr γ} {g : β → Except PyErr δ}
    {l : List β} (h : ∀ x ∈ l, ERel P (f x) (g x)) : ERel (List.Forall₂ P) (l.mapM f) (l.mapM g) := by
  induction l with
  | nil => exact .ok .nil
  | cons x l ih =>
    rw [List.mapM_cons, List.mapM_cons]
    exact (h x (by simp)).bind fun v w hvw => (ih fun y hy => h y (by simp [hy])).bind fun vs ws hs => .ok (.cons hvw hs)

/-! ## The change of units -/

/-- A change of units and reference: phase `x ↦ lam x + c`, range `r ↦ mu r + d`. -/
structure Units where
  lam : ℝ
  c : ℝ
  mu : ℝ
  d : ℝ

/-- the new phase -/
def Units.phase (K : Units) (x : ℝ) : ℝ := K.lam * x + K.c
/-- the new range -/
def Units.range (K : Units) (r : ℝ) : ℝ := K.mu * r + K.d

/-- `R'` is `R` in other units: bad value and phases change as phases, ranges as ranges, the threshold as a difference of
phases; reflectivity, filter and parameters are the same. -/
structure Changed (K : Units) (R R' : Ray XR) : Prop where
  lam : 0 < K.lam
  mu : K.mu ≠ 0
  n : R'.n = R.n
  nf : R'.nf = R.nf
  order : R'.order = R.order
  gain : R'.gain = R.gain
  coef : R'.coef = R.coef
  stdGate : R'.stdGate = R.stdGate
  nadp0 : R'.nadp0 = R.nadp0
  dz : R'.dz = R.dz
  lenDp : R'.dp.len = R.dp.len
  lenRng : R'.rng.len = R.rng.len
  lenThsd : R'.thsd.len = R.thsd.len
  /-- the bad value is a number -/
  bad : ∃ β : ℝ, R.bad = .fin β ∧ R'.bad = .fin (K.phase β) ∧
    (∀ j : Int, 0 ≤ j → j < R.n → ((R.dz.mem j ==. .fin (K.phase β)) = (R.dz.mem j ==. .fin β))) ∧
    (∀ (j : Int) (r : ℝ), 0 ≤ j → j < R.n → R.rng.mem j = .fin r → (K.range r = K.phase β ↔ r = β))
  dp : ∀ j : Int, 0 ≤ j → j < R.n → ∃ x : ℝ, R.dp.mem j = .fin x ∧ R'.dp.mem j = .fin (K.phase x)
  rng : ∀ j : Int, 0 ≤ j → j < R.n → ∃ r : ℝ, R.rng.mem j = .fin r ∧ R'.rng.mem j = .fin (K.range r)
  thsd : ∀ j : Int, 0 ≤ j → j < R.n → ∃ t : ℝ, R.thsd.mem j = .fin t ∧ R'.thsd.mem j = .fin (K.lam * t) ∧
    (100 ≤ K.lam * t ↔ 100 ≤ t)

variable {K : Units} {R R' : Ray XR}

theorem Units.phase_inj (hl : 0 < K.lam) {x y : ℝ} : K.phase x = K.phase y ↔ x = y := by
  unfold Units.phase
  constructor
  · intro h
    have : K.lam * x = K.lam * y := by linarith
    exact mul_left_cancel₀ hl.ne' this
  · rintro rfl; rfl

/-- a phase in old and new units -/
def RelV (K : Units) (v w : XR) : Prop := ∃ x : ℝ, v = .fin x ∧ w = .fin (K.phase x)

/-- arrays of phases in old and new units -/
structure RelB (K : Units) (n : Nat) (a b : Buf XR) : Prop where
  len : b.len = a.len
  val : ∀ j : Int, 0 ≤ j → j < n → RelV K (a.mem j) (b.mem j)

theorem relRd {K : Units} {n : Nat} {a b : Buf XR} (h : RelB K n a b) (chk : Bool) (name : String) {j : Int} (h0 : 0 ≤ j)
    (h1 : j < n) : ERel (RelV K) (rd chk name a j) (rd chk name b j) := by
  unfold rd Buf.has
  rw [h.len]
  split
  · exact .err _
  · exact .ok (h.val j h0 h1)

theorem Changed.relDp (h : Changed K R R') : RelB K R.n R.dp R'.dp := ⟨h.lenDp, h.dp⟩

theorem Changed.rdRng (h : Changed K R R') (chk : Bool) {j : Int} (h0 : 0 ≤ j) (h1 : j < R.n) :
    ERel (fun v w => ∃ r : ℝ, v = .fin r ∧ w = .fin (K.range r) ∧ R.rng.mem j = .fin r) (rd chk "rng" R.rng j) (rd chk "rng" R'.rng j) := by
  unfold rd Buf.has
  rw [h.lenRng]
  split
  · exact .err _
  · obtain ⟨r, e1, e2⟩ := h.rng j h0 h1
    exact .ok ⟨r, e1, e2, e1⟩

theorem Changed.badEq (h : Changed K R R') {v w : XR} (hv : RelV K v w) : (w ==. R'.bad) = (v ==. R.bad) := by
  obtain ⟨β, e1, e2, -⟩ := h.bad
  obtain ⟨x, rfl, rfl⟩ := hv
  rw [e1, e2, feq, feq]
  have := K.phase_inj h.lam (x := x) (y := β)
  by_cases hx : x = β
  · simp [hx]
  · have := mt this.mp hx
    simp [hx, this]

theorem Changed.badNe (h : Changed K R R') {v w : XR} (hv : RelV K v w) : (w !=. R'.bad) = (v !=. R.bad) := by
  unfold PyFloat.ne; rw [h.badEq hv]

/-! ## Standard deviation -/

theorem popStd_chg (hl : 0 ≤ K.lam) (xs : List ℝ) : popStd (xs.map K.phase) = K.lam * popStd xs := by
  rcases eq_or_ne xs [] with rfl | hne
  · simp [popStd]
  have hs : ((xs.map K.phase).sum) = K.lam * xs.sum + xs.length * K.c := by
    clear hne
    induction xs with
    | nil => simp
    | cons x xs ih => simp only [List.map_cons, List.sum_cons, ih, Units.phase, List.length_cons]; push_cast; ring
  have hn : (xs.length : ℝ) ≠ 0 := by
    have := List.length_pos_iff.mpr hne; positivity
  unfold popStd
  rw [hs, List.length_map, List.map_map]
  have hq : (xs.map ((fun x => (x - (K.lam * xs.sum + xs.length * K.c) / xs.length) ^ 2) ∘ K.phase)).sum =
      K.lam ^ 2 * (xs.map (fun x => (x - xs.sum / xs.length) ^ 2)).sum := by
    rw [← List.sum_map_mul_left]
    congr 1
    apply List.map_congr_left
    intro x _
    simp only [Function.comp, Units.phase]
    field_simp
    ring
  rw [hq, mul_div_assoc, Real.sqrt_mul (sq_nonneg _), Real.sqrt_sq hl]

/-- standard deviations in old and new units; 100 stands for "too few good phases" -/
def RelSd (K : Units) (v w : XR) : Prop := (v = .fin 100 ∧ w = .fin 100) ∨ ∃ s : ℝ, v = .fin s ∧ w = .fin (K.lam * s)

theorem forall2_lift {xs ys : List XR} (h : List.Forall₂ (RelV K) xs ys) :
    ∃ l : List ℝ, xs = l.map .fin ∧ ys = (l.map K.phase).map .fin := by
  induction h with
  | nil => exact ⟨[], rfl, rfl⟩
  | cons hv _ ih =>
    obtain ⟨x, rfl, rfl⟩ := hv
    obtain ⟨l, rfl, rfl⟩ := ih
    exact ⟨x :: l, rfl, rfl⟩

theorem forall2_filter (h : Changed K R R') {xs ys : List XR} (hxy : List.Forall₂ (RelV K) xs ys) :
    List.Forall₂ (RelV K) (xs.filter (fun x => x !=. R.bad)) (ys.filter (fun x => x !=. R'.bad)) := by
  induction hxy with
  | nil => exact .nil
  | cons hv _ ih =>
    rw [List.filter_cons, List.filter_cons, h.badNe hv]
    split
    · exact .cons hv ih
    · exact ih

theorem relSdAt (h : Changed K R R') (hs : 1 ≤ R.stdGate) (chk : Bool) (i : Int) :
    ERel (RelSd K) (sdAt cython chk R i) (sdAt cython chk R' i) := by
  have hh : R'.halfStd = R.halfStd := by unfold Ray.halfStd; rw [h.stdGate]
  have h100 : (100.0 : XR) = .fin 100 := by rw [fsci]; norm_num
  have hpos : 0 ≤ R.halfStd := by unfold Ray.halfStd; omega
  unfold sdAt
  simp only [wx, XR.ff32]
  rw [hh, h.n]
  split
  · rename_i hw
    refine (ERel.mapM (P := RelV K) fun j hj => ?_).bind fun xs ys hxy => ?_
    · have := mem_rangeI.mp hj
      exact relRd h.relDp chk _ (by omega) (by omega)
    · have hf := forall2_filter h hxy
      obtain ⟨l, e1, e2⟩ := forall2_lift hf
      have n1 := sd_count cython R.bad xs ⟨0, 0.0, 0.0, 0.0⟩
      have n2 := sd_count cython R'.bad ys ⟨0, 0.0, 0.0, 0.0⟩
      have hN : (ys.foldl (sdStep cython R'.bad) ⟨0, 0.0, 0.0, 0.0⟩).N = (xs.foldl (sdStep cython R.bad) ⟨0, 0.0, 0.0, 0.0⟩).N := by
        rw [n1, n2, e1, e2]; simp
      rw [hN]
      split
      · rename_i hgt
        have hN0 : (xs.foldl (sdStep cython R.bad) ⟨0, 0.0, 0.0, 0.0⟩).N ≠ 0 := by omega
        have hN0' : ((xs.foldl (sdStep cython R.bad) ⟨0, 0.0, 0.0, 0.0⟩).N == 0) = false := beq_false_of_ne hN0
        rw [hN0', Bool.and_false]
        simp only [Bool.false_eq_true, if_false]
        have hne : l ≠ [] := by
          rintro rfl; rw [n1, e1] at hN0; simp at hN0
        have hg1 : ∀ x ∈ l, (XR.fin x !=. R.bad) = true := by
          intro x hx
          have : XR.fin x ∈ xs.filter (fun x => x !=. R.bad) := by rw [e1]; exact List.mem_map_of_mem hx
          exact (List.mem_filter.mp this).2
        have hg2 : ∀ x ∈ l.map K.phase, (XR.fin x !=. R'.bad) = true := by
          intro x hx
          have : XR.fin x ∈ ys.filter (fun x => x !=. R'.bad) := by rw [e2]; exact List.mem_map_of_mem hx
          exact (List.mem_filter.mp this).2
        have v1 := (sd_value cython R.bad l hg1 hne).2
        have v2 := (sd_value cython R'.bad (l.map K.phase) hg2 (by simpa using hne)).2
        rw [← e1, ← sd_skip] at v1
        rw [← e2, ← sd_skip, hN] at v2
        rw [v1, v2, popStd_chg h.lam.le]
        exact .ok (.inr ⟨_, rfl, rfl⟩)
      · rw [h100]; exact .ok (.inl ⟨rfl, rfl⟩)
  · rw [h100]; exact .ok (.inl ⟨rfl, rfl⟩)

/-! ## The filter -/

/-- arrays of standard deviations -/
structure RelS (K : Units) (n : Nat) (a b : Buf XR) : Prop where
  len : b.len = a.len
  val : ∀ j : Int, 0 ≤ j → j < n → RelSd K (a.mem j) (b.mem j)

theorem relGood (h : Changed K R R') {sd sd' z z' : Buf XR} (hs : RelS K R.n sd sd') (hz : RelB K R.n z z') (chk : Bool)
    {j : Int} (h0 : 0 ≤ j) (h1 : j < R.n) : ERel Eq (good chk R sd z j) (good chk R' sd' z' j) := by
  unfold good
  refine ERel.bind (P := RelSd K) ?_ fun s s' hss => ?_
  · unfold rd Buf.has
    rw [hs.len]
    split
    · exact .err _
    · exact .ok (hs.val j h0 h1)
  · refine ERel.bind (P := fun v w => ∃ t : ℝ, v = .fin t ∧ w = .fin (K.lam * t) ∧ (100 ≤ K.lam * t ↔ 100 ≤ t)) ?_ fun t t' htt => ?_
    · unfold rd Buf.has
      rw [h.lenThsd]
      split
      · exact .err _
      · exact .ok (h.thsd j h0 h1)
    · have : (s' <=. t') = (s <=. t) := by
        obtain ⟨t, rfl, rfl, ht⟩ := htt
        rcases hss with ⟨rfl, rfl⟩ | ⟨s, rfl, rfl⟩
        · rw [fle, fle]; simpa using ht
        · rw [fle, fle]
          have : K.lam * s ≤ K.lam * t ↔ s ≤ t := mul_le_mul_iff_right₀ h.lam
          simp [this]
      rw [this]
      split
      · refine (relRd hz chk _ h0 h1).bind fun v w hvw => ?_
        rw [h.badNe hvw]; exact .ok rfl
      · exact .ok rfl

/-- samples (range, phase) in old and new units -/
def RelP (h : Units) (R : Ray XR) (ps qs : List (XR × XR)) : Prop :=
  ∃ g : List (ℝ × ℝ), ps = g.map lift ∧ qs = (g.map (chg h.lam h.c h.mu h.d)).map lift ∧
    ∀ p ∈ g, ∃ j : Int, 0 ≤ j ∧ j < R.n ∧ R.rng.mem j = .fin p.1

theorem relPush {ps qs : List (XR × XR)} (hp : RelP K R ps qs) {j : Int} (h0 : 0 ≤ j) (h1 : j < R.n) {r r' v v' : XR}
    (hr : ∃ t : ℝ, r = .fin t ∧ r' = .fin (K.range t) ∧ R.rng.mem j = .fin t) (hv : RelV K v v') (chk : Bool) :
    ERel (RelP K R) (push chk ps (r, v)) (push chk qs (r', v')) := by
  obtain ⟨g, rfl, rfl, hg⟩ := hp
  obtain ⟨t, rfl, rfl, ht⟩ := hr
  obtain ⟨x, rfl, rfl⟩ := hv
  unfold push
  simp only [List.length_map]
  split
  · exact .err _
  · refine .ok ⟨g ++ [(t, x)], by simp [lift], by simp [lift, chg, Units.range, Units.phase], fun p hp => ?_⟩
    rcases List.mem_append.mp hp with hp | hp
    · exact hg p hp
    · simp only [List.mem_singleton] at hp; subst hp; exact ⟨j, h0, h1, ht⟩

theorem relCollect (h : Changed K R R') {sd sd' z z' : Buf XR} (hs : RelS K R.n sd sd') (hz : RelB K R.n z z') (chk : Bool)
    {js : List Int} (hj : ∀ j ∈ js, 0 ≤ j ∧ j < R.n) : ERel (RelP K R) (collect chk R sd z js) (collect chk R' sd' z' js) := by
  unfold collect
  refine ERel.foldlM ⟨[], rfl, rfl, by simp⟩ fun j hjm ps qs hpq => ?_
  have hj := hj j hjm
  refine (relGood h hs hz chk hj.1 hj.2).bind fun b b' hb => ?_
  subst hb
  split
  · refine (relRd hz chk _ hj.1 hj.2).bind fun v w hvw => (h.rdRng chk hj.1 hj.2).bind fun r r' hr => ?_
    exact relPush hpq hj.1 hj.2 hr hvw chk
  · exact .ok hpq

theorem relKdpCollect (h : Changed K R R') {z z' : Buf XR} (hz : RelB K R.n z z') (chk : Bool)
    {js : List Int} (hj : ∀ j ∈ js, 0 ≤ j ∧ j < R.n) : ERel (RelP K R) (kdpCollect chk R z js) (kdpCollect chk R' z' js) := by
  unfold kdpCollect
  refine ERel.foldlM ⟨[], rfl, rfl, by simp⟩ fun j hjm ps qs hpq => ?_
  have hj := hj j hjm
  refine (relRd hz chk _ hj.1 hj.2).bind fun v w hvw => ?_
  rw [h.badNe hvw]
  split
  · exact (h.rdRng chk hj.1 hj.2).bind fun r r' hr => relPush hpq hj.1 hj.2 hr hvw chk
  · exact .ok hpq

/-- slope and intercept in old and new units -/
def RelL (K : Units) (p q : XR × XR) : Prop :=
  ∃ a b : ℝ, p = (.fin a, .fin b) ∧ q = (.fin (K.lam / K.mu * a), .fin (K.lam * b + K.c - K.lam / K.mu * a * K.d))

theorem relLse (h : Changed K R R') {ps qs : List (XR × XR)} (hp : RelP K R ps qs) :
    ERel (RelL K) (lse cython R.bad ps) (lse cython R'.bad qs) := by
  obtain ⟨g, rfl, rfl, hg⟩ := hp
  obtain ⟨β, e1, e2, -, hr⟩ := h.bad
  have hk : kept cython R'.bad (g.map (chg K.lam K.c K.mu K.d)) = (kept cython R.bad g).map (chg K.lam K.c K.mu K.d) := by
    unfold kept
    rw [List.filter_map]
    congr 1
    apply List.filter_congr
    intro p hp
    obtain ⟨j, j0, j1, hj⟩ := hg p hp
    have hx : (cython (α := XR)).skip R'.bad (.fin (K.range p.1)) = (cython (α := XR)).skip R.bad (.fin p.1) := by
      show (XR.fin (K.range p.1) ==. R'.bad) = (XR.fin p.1 ==. R.bad)
      rw [e1, e2, feq, feq]
      simpa using hr j p.1 j0 j1 hj
    have hy : (cython (α := XR)).skip R'.bad (.fin (K.phase p.2)) = (cython (α := XR)).skip R.bad (.fin p.2) := by
      show (XR.fin (K.phase p.2) ==. R'.bad) = (XR.fin p.2 ==. R.bad)
      exact h.badEq ⟨_, rfl, rfl⟩
    show (!((cython (α := XR)).skip R'.bad (.fin (K.range p.1)) || (cython (α := XR)).skip R'.bad (.fin (K.phase p.2)))) = _
    rw [hx, hy]
  by_cases hd : detR (kept cython R.bad g) = 0
  · have h1 : TwoAbscissae (goodPts R.bad g) → False := fun ht => by
      rw [← kept_cython] at ht; exact (detR_ne_zero_iff _).mpr ht hd
    have h2 : TwoAbscissae (goodPts R'.bad (g.map (chg K.lam K.c K.mu K.d))) → False := fun ht => by
      rw [← kept_cython] at ht
      refine (detR_ne_zero_iff _).mpr ht ?_
      rw [hk, chg_det, hd, mul_zero]
    rw [C10_zero_division R.bad g h1, C10_zero_division R'.bad _ h2]
    exact .err _
  · have hd' : detR (kept cython R'.bad (g.map (chg K.lam K.c K.mu K.d))) ≠ 0 := by
      rw [hk, chg_det]; exact mul_ne_zero (pow_ne_zero _ h.mu) hd
    rw [lse_val cython R.bad g hd, lse_val cython R'.bad _ hd', hk]
    have := chg_slope K.lam K.c h.mu K.d _ hd
    rw [this.1, this.2]
    exact .ok ⟨_, _, rfl, rfl⟩

theorem relSet {n : Nat} {a b : Buf XR} (h : RelB K n a b) (chk : Bool) (name : String) (j : Int) {v w : XR} (hv : RelV K v w) :
    ERel (RelB K n) (a.set chk name j v) (b.set chk name j w) := by
  unfold Buf.set Buf.has
  rw [h.len]
  split
  · exact .err _
  · refine .ok ⟨rfl, fun k k0 k1 => ?_⟩
    dsimp only
    split
    · exact hv
    · exact h.val k k0 k1

theorem relFill (h : Changed K R R') {ab ab' : XR × XR} (hab : RelL K ab ab') {z z' : Buf XR} (hz : RelB K R.n z z') (chk : Bool)
    {js : List Int} (hj : ∀ j ∈ js, 0 ≤ j ∧ j < R.n) : ERel (RelB K R.n) (fill cython chk R ab js z) (fill cython chk R' ab' js z') := by
  unfold fill
  simp only [wx, XR.ff32]
  refine ERel.foldlM hz fun j hjm z z' hz => ?_
  have hj := hj j hjm
  refine (relRd hz chk _ hj.1 hj.2).bind fun v w hvw => ?_
  rw [h.badEq hvw]
  split
  · refine (h.rdRng chk hj.1 hj.2).bind fun r r' hr => relSet hz chk _ j ?_
    obtain ⟨t, rfl, rfl, -⟩ := hr
    obtain ⟨a, b, rfl, rfl⟩ := hab
    refine ⟨a * t + b, by simp, ?_⟩
    simp only [fmul, fadd, Units.phase, Units.range]
    congr 1
    have := h.mu
    field_simp
    ring
  · exact .ok hz

/-- the coefficients the filter reads are numbers; the phase reference is kept by the filter -/
structure Taps (K : Units) (R : Ray XR) (w : Nat → ℝ) (g : ℝ) : Prop where
  gain : R.gain = .fin g
  coef : ∀ k : Nat, k ≤ 2 * (R.order / 2) → R.coef.mem ((k : Int) + 1) = .fin (w k)
  unit : K.c = 0 ∨ g * ∑ k ∈ Finset.range (2 * (R.order / 2) + 1), w k = 1

theorem relFirSum (h : Changed K R R') {w : Nat → ℝ} {g : ℝ} (ht : Taps K R w g) {z z' : Buf XR} (hz : RelB K R.n z z') (chk : Bool)
    {i : Int} (h0 : R.half ≤ i) (h1 : i < (R.n : Int) - R.half) :
    ERel (fun A B => RelV K (A * R.gain) (B * R'.gain)) (firSum cython chk R z (i - R.half) (rangeI (i - R.half) (i + R.half + 1)))
      (firSum cython chk R' z' (i - R.half) (rangeI (i - R.half) (i + R.half + 1))) := by
  have hhalf : (R.half : Int) = ((R.order / 2 : Nat) : Int) := rfl
  have hr : rangeI (i - R.half) (i + R.half + 1) = (List.range (2 * (R.order / 2) + 1)).map (fun (k : Nat) => i - R.half + Int.ofNat k) := by
    unfold rangeI
    rw [show ((i + R.half + 1) - (i - R.half) : Int).toNat = 2 * (R.order / 2) + 1 by omega]
  have key : ∀ m : Nat, m ≤ 2 * (R.order / 2) + 1 →
      ERel (fun A B => ∃ a : ℝ, A = .fin a ∧ B = .fin (K.lam * a + K.c * ∑ k ∈ Finset.range m, w k))
      (firSum cython chk R z (i - R.half) ((List.range m).map (fun (k : Nat) => i - R.half + Int.ofNat k)))
      (firSum cython chk R' z' (i - R.half) ((List.range m).map (fun (k : Nat) => i - R.half + Int.ofNat k))) := by
    intro m
    induction m with
    | zero =>
      intro _
      have h00 : (0.0 : XR) = .fin 0 := by rw [fsci]; norm_num
      unfold firSum
      simp only [wx, XR.ff32]
      rw [h00]
      exact .ok ⟨0, rfl, by simp⟩
    | succ m ih =>
      intro hm
      have ih := ih (by omega)
      unfold firSum at ih ⊢
      simp only [wx, XR.ff32] at ih ⊢
      rw [List.range_succ, List.map_append, List.foldlM_append, List.foldlM_append]
      refine ih.bind fun A B hAB => ?_
      obtain ⟨a, rfl, rfl⟩ := hAB
      simp only [List.map_cons, List.map_nil, List.foldlM_cons, List.foldlM_nil]
      refine ERel.bind (P := fun A B => ∃ a : ℝ, A = .fin a ∧ B = .fin (K.lam * a + K.c * ∑ k ∈ Finset.range (m + 1), w k)) ?_
        fun A B hAB => .ok hAB
      have hidx : i - R.half + Int.ofNat m - (i - R.half) + (cython (α := XR)).coefOff = (m : Int) + 1 := by
        simp only [cython, Int.ofNat_eq_natCast]; omega
      rw [hidx, h.coef]
      refine ERel.bind (P := fun v u => v = .fin (w m) ∧ u = .fin (w m)) ?_ fun c c' hc => ?_
      · unfold rd
        split
        · exact .err _
        · exact .ok ⟨ht.coef m (by omega), ht.coef m (by omega)⟩
      · obtain ⟨rfl, rfl⟩ := hc
        refine (relRd hz chk _ (j := i - R.half + Int.ofNat m) (by simp only [Int.ofNat_eq_natCast]; omega)
          (by simp only [Int.ofNat_eq_natCast]; omega)).bind fun v u hvu => ?_
        obtain ⟨x, rfl, rfl⟩ := hvu
        refine .ok ⟨a + w m * x, by simp, ?_⟩
        simp only [fmul, fadd, Units.phase, Finset.sum_range_succ]
        congr 1; ring
  rw [hr]
  have := key (2 * (R.order / 2) + 1) le_rfl
  revert this
  generalize firSum cython chk R z _ _ = X
  generalize firSum cython chk R' z' _ _ = Y
  intro hXY
  cases hXY with
  | err e => exact .err e
  | ok hAB =>
    obtain ⟨a, rfl, rfl⟩ := hAB
    refine .ok ⟨a * g, by rw [ht.gain]; simp, ?_⟩
    rw [h.gain, ht.gain]
    simp only [fmul, Units.phase]
    congr 1
    rcases ht.unit with hc | hu
    · rw [hc]; ring
    · linear_combination K.c * hu

theorem relFirGate (h : Changed K R R') {w : Nat → ℝ} {g : ℝ} (ht : Taps K R w g) {sd sd' : Buf XR} (hs : RelS K R.n sd sd')
    {yz yz' : Buf XR × Buf XR} (hy : RelB K R.n yz.1 yz'.1) (hz : RelB K R.n yz.2 yz'.2) (chk : Bool)
    {i : Int} (h0 : R.half ≤ i) (h1 : i < (R.n : Int) - R.half) :
    ERel (fun p q => RelB K R.n p.1 q.1 ∧ RelB K R.n p.2 q.2) (firGate cython chk R sd yz i) (firGate cython chk R' sd' yz' i) := by
  have hhalf : R'.half = R.half := by unfold Ray.half; rw [h.order]
  have hj : ∀ j ∈ rangeI (i - R.half) (i + R.half + 1), 0 ≤ j ∧ j < R.n := by
    intro j hj; have := mem_rangeI.mp hj; omega
  unfold firGate
  simp only [wx, XR.ff32]
  rw [hhalf, h.order]
  refine (relGood h hs hz chk (by omega) (by omega)).bind fun b b' hb => ?_
  subst hb
  split
  · refine (relCollect h hs hz chk hj).bind fun ps qs hpq => ?_
    have hlen : qs.length = ps.length := by obtain ⟨g, rfl, rfl, -⟩ := hpq; simp
    rw [hlen]
    split
    · refine ERel.bind (P := RelB K R.n) ?_ fun z z' hz => ?_
      · split
        · exact (relLse h hpq).bind fun ab ab' hab => relFill h hab hz chk hj
        · exact .ok hz
      · refine (relFirSum h ht hz chk h0 h1).bind fun A B hAB => (relSet hy chk _ i hAB).bind fun y y' hy' => .ok ⟨hy', hz⟩
    · exact .ok ⟨hy, hz⟩
  · exact .ok ⟨hy, hz⟩

theorem relPasses (h : Changed K R R') {w : Nat → ℝ} {g : ℝ} (ht : Taps K R w g) {sd sd' : Buf XR} (hs : RelS K R.n sd sd')
    (chk : Bool) (k : Nat) {yz yz' : Buf XR × Buf XR} (hy : RelB K R.n yz.1 yz'.1) (hz : RelB K R.n yz.2 yz'.2) :
    ERel (fun p q => RelB K R.n p.1 q.1 ∧ RelB K R.n p.2 q.2) (firPasses cython chk R sd k yz) (firPasses cython chk R' sd' k yz') := by
  have hhalf : R'.half = R.half := by unfold Ray.half; rw [h.order]
  induction k generalizing yz yz' with
  | zero => exact .ok ⟨hy, hz⟩
  | succ k ih =>
    unfold firPasses
    refine ERel.bind (P := fun p q => RelB K R.n p.1 q.1 ∧ RelB K R.n p.2 q.2) ?_ fun p q hpq => ih hpq.1 hpq.2
    unfold firPass
    rw [hhalf, h.n]
    refine (ERel.foldlM (P := fun p q => RelB K R.n p.1 q.1 ∧ RelB K R.n p.2 q.2) ⟨hy, hz⟩ fun i hi s t hst => ?_).bind
      fun p q hpq => .ok ⟨hpq.1, hpq.1⟩
    have := mem_rangeI.mp hi
    exact relFirGate h ht hs hst.1 hst.2 chk this.1 this.2

/-! ## KDP -/

/-- KDP in old and new units -/
def RelK (K : Units) (R R' : Ray XR) (v w : XR) : Prop :=
  (v = R.bad ∧ w = R'.bad) ∨ ∃ k : ℝ, v = .fin k ∧ w = .fin (K.lam / K.mu * k)

theorem relKdpGate (h : Changed K R R') {z z' : Buf XR} (hz : RelB K R.n z z') (chk : Bool) (m : Int) {i : Int} (h0 : 0 ≤ i) (h1 : i < R.n) :
    ERel (fun p q => RelK K R R' p.1 q.1 ∧ p.2 = q.2) (kdpGate cython chk R z m i) (kdpGate cython chk R' z' m i) := by
  have hhalf : R'.half = R.half := by unfold Ray.half; rw [h.order]
  have hnad : ∀ d m, nadpOf R' d m = nadpOf R d m := by intro d m; unfold nadpOf; rw [hhalf]
  unfold kdpGate
  simp only [wx, XR.ff32]
  rw [h.dz]
  refine ERel.bind (P := fun v w => v = R.dz.mem i ∧ w = v) ?_ fun d d' hd => ?_
  · unfold rd
    split
    · exact .err _
    · exact .ok ⟨rfl, rfl⟩
  · obtain ⟨rfl, rfl⟩ := hd
    have hb : (R.dz.mem i !=. R'.bad) = (R.dz.mem i !=. R.bad) := by
      obtain ⟨β, e1, e2, e3, -⟩ := h.bad
      unfold PyFloat.ne
      rw [e1, e2, e3 i h0 h1]
    rw [hb]
    split
    · rw [hnad, h.n]
      refine ERel.bind (P := RelP K R) ?_ fun ps qs hpq => ?_
      · split
        · refine relKdpCollect h hz chk fun j hj => ?_
          have := mem_rangeI.mp hj
          have hw : (cython (α := XR)).winEnd = 0 := rfl
          omega
        · exact .ok ⟨[], rfl, rfl, by simp⟩
      · have hlen : qs.length = ps.length := by obtain ⟨g, rfl, rfl, -⟩ := hpq; simp
        rw [hlen]
        split
        · refine (relLse h hpq).bind fun ab ab' hab => ?_
          obtain ⟨a, b, rfl, rfl⟩ := hab
          refine .ok ⟨.inr ⟨0.5 * a, ?_, ?_⟩, rfl⟩
          · simp only [fsci, fmul]
          · simp only [fsci, fmul]; congr 1; ring
        · exact .ok ⟨.inl ⟨rfl, rfl⟩, rfl⟩
    · exact .ok ⟨.inl ⟨rfl, rfl⟩, rfl⟩

theorem relKdpLoop (h : Changed K R R') {z z' : Buf XR} (hz : RelB K R.n z z') (chk : Bool) (is : List Int) (hi : ∀ i ∈ is, 0 ≤ i ∧ i < R.n)
    (m : Int) : ERel (List.Forall₂ (RelK K R R')) (kdpLoop cython chk R z is m) (kdpLoop cython chk R' z' is m) := by
  induction is generalizing m with
  | nil => exact .ok .nil
  | cons i is ih =>
    unfold kdpLoop
    have hi' := hi i (by simp)
    refine (relKdpGate h hz chk m hi'.1 hi'.2).bind fun p q hpq => ?_
    obtain ⟨p1, p2⟩ := p
    obtain ⟨q1, q2⟩ := q
    obtain ⟨h1, h2⟩ := hpq
    dsimp only at h1 h2 ⊢
    subst h2
    exact (ih (fun j hj => hi j (by simp [hj])) p2).bind fun ks ks' hk => .ok (.cons h1 hk)

theorem relOfList {n : Nat} {xs ys : List XR} (h : List.Forall₂ (RelV K) xs ys) (hn : xs.length = n) :
    RelB K n (ofList n xs) (ofList n ys) := by
  refine ⟨rfl, fun j j0 j1 => ?_⟩
  obtain ⟨m, rfl⟩ : ∃ m : Nat, j = m := ⟨j.toNat, by omega⟩
  have hl := h.length_eq
  rw [ofList_get _ _ m (by omega), ofList_get _ _ m (by omega)]
  exact List.Forall₂.get h (by omega) (by omega)

theorem relCalc (h : Changed K R R') (hs : 1 ≤ R.stdGate) {w : Nat → ℝ} {g : ℝ} (ht : Taps K R w g) (chk : Bool) :
    ERel (fun a b => List.Forall₂ (RelK K R R') a.kd b.kd ∧ List.Forall₂ (RelV K) a.dp b.dp ∧ List.Forall₂ (RelSd K) a.sd b.sd)
      (calcKdpRayFir cython chk R) (calcKdpRayFir cython chk R') := by
  unfold calcKdpRayFir
  rw [h.n, h.nf, h.nadp0]
  refine ERel.bind (P := fun a b => List.Forall₂ (RelV K) a b ∧ a.length = R.n) ?_ fun z z' hz => ?_
  · have := ERel.mapM (P := RelV K) (l := gates R.n) (f := rd chk "dp" R.dp) (g := rd chk "dp" R'.dp) fun j hj => by
      have := mem_gates.mp hj
      exact relRd h.relDp chk _ this.1 this.2
    revert this
    cases hx : (gates R.n).mapM (rd chk "dp" R.dp) with
    | error e =>
      intro hE
      generalize (gates R.n).mapM (rd chk "dp" R'.dp) = Y at hE
      cases hE with
      | err => exact .err e
    | ok v =>
      intro hE
      generalize (gates R.n).mapM (rd chk "dp" R'.dp) = Y at hE
      cases hE with
      | ok hvw => exact .ok ⟨hvw, by rw [(mapM_get hx).1, gates_length]⟩
  · refine ERel.bind (P := fun a b => List.Forall₂ (RelSd K) a b ∧ a.length = R.n) ?_ fun sd sd' hsd => ?_
    · have := ERel.mapM (P := RelSd K) (l := gates R.n) (f := sdAt cython chk R) (g := sdAt cython chk R') fun j hj =>
        relSdAt h hs chk j
      revert this
      cases hx : (gates R.n).mapM (sdAt cython chk R) with
      | error e =>
        intro hE
        generalize (gates R.n).mapM (sdAt cython chk R') = Y at hE
        cases hE with
        | err => exact .err e
      | ok v =>
        intro hE
        generalize (gates R.n).mapM (sdAt cython chk R') = Y at hE
        cases hE with
        | ok hvw => exact .ok ⟨hvw, by rw [(mapM_get hx).1, gates_length]⟩
    · have hS : RelS K R.n (ofList R.n sd) (ofList R.n sd') := by
        refine ⟨rfl, fun j j0 j1 => ?_⟩
        obtain ⟨m, rfl⟩ : ∃ m : Nat, j = m := ⟨j.toNat, by omega⟩
        have hl := hsd.1.length_eq
        rw [ofList_get _ _ m (by omega), ofList_get _ _ m (by omega)]
        exact List.Forall₂.get hsd.1 (by omega) (by omega)
      have hY : RelB K R.n (ofList R.n (List.replicate R.n R.bad)) (ofList R.n (List.replicate R.n R'.bad)) := by
        refine relOfList ?_ (by simp)
        obtain ⟨β, e1, e2, -⟩ := h.bad
        have hv : RelV K R.bad R'.bad := ⟨β, e1, e2⟩
        clear hz hsd hS
        generalize R.n = n
        induction n with
        | zero => exact .nil
        | succ n ih => rw [List.replicate_succ, List.replicate_succ]; exact .cons hv ih
      refine (relPasses h ht hS chk R.nf (yz := (_, _)) (yz' := (_, _)) hY (relOfList hz.1 hz.2)).bind fun yz yz' hyz => ?_
      obtain ⟨y, z2⟩ := yz
      obtain ⟨y', z2'⟩ := yz'
      obtain ⟨-, hz2⟩ := hyz
      dsimp only at hz2 ⊢
      refine (relKdpLoop h hz2 chk (gates R.n) (fun i hi => mem_gates.mp hi) R.nadp0).bind fun kd kd' hk => ?_
      refine .ok ⟨hk, ?_, hsd.1⟩
      dsimp only
      rw [List.forall₂_map_left_iff, List.forall₂_map_right_iff, List.forall₂_same]
      intro j hj
      have := mem_gates.mp hj
      exact hz2.val j this.1 this.2

end Csu.Kdp
