import Verif.Lemmas.KdpOffset
/-! A ray whose missing values are marked by `t`, for all but finitely many `t`. -/
namespace Csu.Kdp.Flag
open Csu PyFloat XR KdpSpec Filter Csu.Kdp

/-- A value as a function of the number that marks missing values. -/
def fval (t : ℝ) : Option XR → XR
  | none => .fin t
  | some v => v

/-- The ray with phases `x` and reflectivities `d` (`none` = missing), missing values marked by `t`. -/
def flagged (R : Ray XR) (x d : Int → Option XR) (t : ℝ) : Ray XR :=
  { R with dp := ⟨R.dp.len, fun j => fval t (x j)⟩, dz := ⟨R.dz.len, fun j => fval t (d j)⟩, bad := .fin t }

/-- eventually the mark, or one and the same value -/
def FVal (V : ℝ → XR) : Prop := ∃ o : Option XR, ∀ᶠ t in cofinite, V t = fval t o

/-- an array of such values -/
structure FBuf (n : Nat) (Z : ℝ → Buf XR) : Prop where
  len : ∃ L, ∀ᶠ t in cofinite, (Z t).len = L
  val : ∀ j : Int, 0 ≤ j → j < n → FVal (fun t => (Z t).mem j)

theorem FBuf.rd {n : Nat} {Z : ℝ → Buf XR} (h : FBuf n Z) (chk : Bool) (name : String) {j : Int} (h0 : 0 ≤ j)
    (h1 : j < n) : Ev (fun t => rd chk name (Z t) j) FVal := ev_rd h.len (h.val j h0 h1) chk name

/-- a fixed value differs from all but finitely many marks -/
theorem off (v : XR) : ∀ᶠ t : ℝ in cofinite, (v ==. .fin t) = false := by
  cases v with
  | fin x =>
    rw [eventually_cofinite]
    refine (Set.finite_singleton x).subset fun t ht => ?_
    simp only [Set.mem_setOf_eq, feq, Bool.not_eq_false, decide_eq_true_eq] at ht
    exact ht.symm
  | pinf => exact Eventually.of_forall fun t => rfl
  | ninf => exact Eventually.of_forall fun t => rfl
  | nan => exact Eventually.of_forall fun t => rfl

theorem fval_eq (o : Option XR) : ∀ᶠ t in cofinite, (fval t o ==. .fin t) = o.isNone := by
  cases o with
  | none => exact Eventually.of_forall fun t => by simp [fval]
  | some v => exact (off v).mono fun t ht => by simp [fval, ht]

theorem fval_ne (o : Option XR) : ∀ᶠ t in cofinite, (fval t o !=. .fin t) = o.isSome :=
  (fval_eq o).mono fun t ht => by unfold PyFloat.ne; rw [ht]; cases o <;> rfl

/-- what the fit skips does not depend on the mark, as far as fixed values are concerned -/
def Skips (D : Dialect XR) : Prop := ∃ s : XR → Bool, ∀ v, ∀ᶠ t : ℝ in cofinite, D.skip (.fin t) v = s v

theorem skips_cython : Skips cython := ⟨fun _ => false, fun v => off v⟩
theorem skips_fortran : Skips fortran := ⟨fun v => v >. 1e35, fun _ => Eventually.of_forall fun _ => rfl⟩

variable {D : Dialect XR} {R : Ray XR} {x d : Int → Option XR}

/-! ## Standard deviation -/

/-- lists of values -/
def FList (V : ℝ → List XR) : Prop := ∃ s : List (Option XR), ∀ᶠ t in cofinite, V t = s.map (fval t)

theorem ev_mapM {l : List Int} {f : ℝ → Int → Except PyErr XR} (h : ∀ j ∈ l, Ev (fun t => f t j) FVal) :
    Ev (fun t => l.mapM (f t)) FList := by
  induction l with
  | nil => exact .ok ⟨[], Eventually.of_forall fun _ => rfl⟩
  | cons j l ih =>
    simp only [List.mapM_cons]
    refine (h j (by simp)).bind fun V hV => (ih fun k hk => h k (by simp [hk])).bind fun W hW => .ok ?_
    obtain ⟨s, hs⟩ := hV
    obtain ⟨ss, hss⟩ := hW
    exact ⟨s :: ss, (hs.and hss).mono fun t ht => by beta_reduce; rw [ht.1, ht.2]; rfl⟩

theorem sd_const (s : List (Option XR)) (a : ℝ → SdAcc XR) (ha : PConst a) :
    PConst fun t => (s.map (fval t)).foldl (sdStep D (.fin t)) (a t) := by
  induction s generalizing a with
  | nil => exact ha
  | cons o s ih =>
    simp only [List.map_cons, List.foldl_cons]
    refine ih (fun t => sdStep D (.fin t) (a t) (fval t o)) ?_
    obtain ⟨c, hc⟩ := ha
    cases o with
    | none =>
      refine ⟨c, (hc.and (fval_ne none)).mono fun t ht => ?_⟩
      unfold sdStep
      beta_reduce
      rw [ht.2, ht.1]; rfl
    | some v =>
      refine ⟨sdStep D .nan c v, (hc.and (fval_ne (some v))).mono fun t ht => ?_⟩
      have h1 : (v !=. (.fin t : XR)) = true := ht.2
      have h2 : (v !=. (XR.nan : XR)) = true := by cases v <;> rfl
      unfold sdStep
      beta_reduce
      rw [ht.1]
      show (if (v !=. (.fin t : XR)) = true then _ else _) = _
      rw [if_pos h1, if_pos h2]; rfl

theorem ev_sdAt (chk : Bool) (i : Int) : Ev (fun t => sdAt D chk (flagged R x d t) i) PConst := by
  have hn : ∀ t, (flagged R x d t).n = R.n := fun _ => rfl
  have hh : ∀ t, (flagged R x d t).halfStd = R.halfStd := fun _ => rfl
  have hbad : ∀ t, (flagged R x d t).bad = .fin t := fun _ => rfl
  unfold sdAt
  simp only [hh, hn, hbad]
  split
  · refine Ev.bind (P := FList) (ev_mapM fun j _ => ?_) fun V hV => ?_
    · exact ev_rd (A := FVal) (Z := fun t => (flagged R x d t).dp) ⟨R.dp.len, Eventually.of_forall fun _ => rfl⟩ ⟨x j, Eventually.of_forall fun _ => rfl⟩ chk _
    · obtain ⟨s, hs⟩ := hV
      obtain ⟨c, hc⟩ := sd_const (D := D) s (fun _ => ⟨0, 0.0, 0.0, 0.0⟩) (pconst_of _)
      refine Ev.congr (Y := fun _ => if (c.N : Int) > R.halfStd then
          if (D.raises && c.N == 0) = true then .error .zeroDivisionError
          else .ok (f32 (PyFloat.sqrt (D.w (c.V / D.w (PyFloat.ofNat c.N)))))
        else .ok 100.0) ((hs.and hc).mono fun t ht => ?_) ?_
      · dsimp only at ht ⊢
        rw [ht.1, ht.2]
      · split
        · split
          · exact .err _
          · exact .ok (pconst_of _)
        · exact .ok (pconst_of _)
  · exact .ok (pconst_of _)

/-! ## The filter -/

theorem ev_good {sd z : ℝ → Buf XR} (hs : PCBuf R.n sd) (hz : FBuf R.n z) (chk : Bool)
    {j : Int} (h0 : 0 ≤ j) (h1 : j < R.n) : Ev (fun t => good chk (flagged R x d t) (sd t) (z t) j) PConst := by
  have hth : ∀ t, (flagged R x d t).thsd = R.thsd := fun _ => rfl
  have hbad : ∀ t, (flagged R x d t).bad = .fin t := fun _ => rfl
  unfold good
  simp only [hth, hbad]
  refine (ev_rd hs.len (hs.val j h0 h1) chk _).bind fun S hS => (ev_rd_const R.thsd chk _ j).bind fun T hT => ?_
  obtain ⟨s, hS⟩ := hS
  by_cases hc : (s <=. R.thsd.mem j) = true
  · refine Ev.congr (Y := fun t => do let v ← rd chk "z" (z t) j; .ok (v !=. .fin t)) (hS.mono fun t ht => ?_) ?_
    · beta_reduce
      rw [ht, hT, if_pos hc]
    · refine (hz.rd chk _ h0 h1).bind (f := fun t v => .ok (v !=. .fin t)) fun V hV => .ok ?_
      obtain ⟨o, ho⟩ := hV
      exact ⟨o.isSome, (ho.and (fval_ne o)).mono fun t ht => by beta_reduce; rw [ht.1, ht.2]⟩
  · refine Ev.congr (Y := fun _ => .ok false) (hS.mono fun t ht => ?_) (.ok (pconst_of _))
    beta_reduce
    rw [ht, hT, if_neg hc]

theorem ev_push {V : ℝ → List (XR × XR)} (hV : PConst V) {p : ℝ → XR × XR} (hp : PConst p) (chk : Bool) :
    Ev (fun t => push chk (V t) (p t)) PConst := by
  obtain ⟨g, hg⟩ := hV
  obtain ⟨q, hq⟩ := hp
  refine Ev.congr (Y := fun _ => push chk g q) ((hg.and hq).mono fun t ht => by beta_reduce; rw [ht.1, ht.2]) ?_
  unfold push
  split
  · exact .err _
  · exact .ok (pconst_of _)

theorem ev_collect {sd z : ℝ → Buf XR} (hs : PCBuf R.n sd)
    (hz : FBuf R.n z) (chk : Bool) {js : List Int} (hj : ∀ j ∈ js, 0 ≤ j ∧ j < R.n) :
    Ev (fun t => collect chk (flagged R x d t) (sd t) (z t) js) PConst := by
  have hrng : ∀ t, (flagged R x d t).rng = R.rng := fun _ => rfl
  unfold collect
  simp only [hrng]
  refine Ev.foldlM (pconst_of []) fun j hjm acc hacc => ?_
  have hj := hj j hjm
  obtain ⟨o, ho⟩ := hz.val j hj.1 hj.2
  cases o with
  | none =>
    have hg := ev_good (x := x) (d := d) hs hz chk hj.1 hj.2
    rcases hg with ⟨e, he⟩ | ⟨V, hV, b, hb'⟩
    · exact .inl ⟨e, he.mono fun t ht => by beta_reduce at ht ⊢; rw [ht]; rfl⟩
    · refine Ev.congr (Y := fun t => .ok (acc t)) ((hV.and ho).mono fun t ht => ?_) (.ok hacc)
      beta_reduce at ht ⊢
      rw [ht.1]
      have hv := good_val ht.1
      have hf : V t = false := by
        rw [hv, ht.2]
        show ((sd t).mem j <=. (flagged R x d t).thsd.mem j && (fval t none !=. (.fin t : XR))) = false
        simp [fval, PyFloat.ne]
      rw [hf]; rfl
  | some v =>
    refine (ev_good (x := x) (d := d) hs hz chk hj.1 hj.2).bind fun B hB => ?_
    obtain ⟨b, hB⟩ := hB
    cases b with
    | false => exact Ev.congr (Y := fun t => .ok (acc t)) (hB.mono fun t ht => by beta_reduce; rw [ht]; rfl) (.ok hacc)
    | true =>
      refine Ev.congr (Y := fun t => do
        let v ← rd chk "z" (z t) j
        let r ← rd chk "rng" R.rng j
        push chk (acc t) (r, v)) (hB.mono fun t ht => by beta_reduce; rw [ht]; rfl) ?_
      refine Ev.bind (P := fun V => ∀ᶠ t in cofinite, V t = v) (ev_rd hz.len ho chk _) fun V hV => ?_
      refine (ev_rd_const R.rng chk _ j).bind fun W hW => ?_
      refine ev_push hacc ⟨(R.rng.mem j, v), hV.mono fun t ht => ?_⟩ chk
      beta_reduce
      rw [ht, hW]

theorem ev_kdpCollect {z : ℝ → Buf XR} (hz : FBuf R.n z) (chk : Bool) {js : List Int} (hj : ∀ j ∈ js, 0 ≤ j ∧ j < R.n) :
    Ev (fun t => kdpCollect chk (flagged R x d t) (z t) js) PConst := by
  have hrng : ∀ t, (flagged R x d t).rng = R.rng := fun _ => rfl
  have hbad : ∀ t, (flagged R x d t).bad = .fin t := fun _ => rfl
  unfold kdpCollect
  simp only [hrng, hbad]
  refine Ev.foldlM (pconst_of []) fun j hjm acc hacc => ?_
  have hj := hj j hjm
  refine (hz.rd chk _ hj.1 hj.2).bind fun V hV => ?_
  obtain ⟨o, ho⟩ := hV
  have hne := fval_ne o
  cases o with
  | none =>
    refine Ev.congr (Y := fun t => .ok (acc t)) ((ho.and hne).mono fun t ht => ?_) (.ok hacc)
    beta_reduce
    rw [ht.1, ht.2]; rfl
  | some v =>
    refine Ev.congr (Y := fun t => do
        let r ← rd chk "rng" R.rng j
        push chk (acc t) (r, V t)) ((ho.and hne).mono fun t ht => by beta_reduce; rw [ht.1, ht.2]; rfl) ?_
    refine (ev_rd_const R.rng chk _ j).bind fun W hW => ?_
    refine ev_push hacc ⟨(R.rng.mem j, v), ho.mono fun t ht => ?_⟩ chk
    beta_reduce
    rw [ht, hW]; rfl

theorem lseSums_congr {D D' : Dialect XR} {b b' : XR} (g : List (XR × XR)) (hw : ∀ v, D.w v = D'.w v)
    (h : ∀ p ∈ g, D.skip b p.1 = D'.skip b' p.1 ∧ D.skip b p.2 = D'.skip b' p.2) : lseSums D b g = lseSums D' b' g := by
  unfold lseSums
  generalize (⟨f32 (PyFloat.ofNat g.length), 0.0, 0.0, 0.0, 0.0⟩ : Sums XR) = s
  induction g generalizing s with
  | nil => rfl
  | cons p g ih =>
    rw [List.foldl_cons, List.foldl_cons, ih fun q hq => h q (by simp [hq])]
    congr 1
    have := h p (by simp)
    unfold lseStep
    rw [this.1, this.2]
    simp only [hw]

theorem ev_lse (hD : Skips D) {V : ℝ → List (XR × XR)} (hV : PConst V) : Ev (fun t => lse D (.fin t) (V t)) PConst := by
  obtain ⟨s, hs⟩ := hD
  obtain ⟨g, hg⟩ := hV
  have hall : ∀ᶠ t : ℝ in cofinite, ∀ p ∈ g, D.skip (.fin t) p.1 = s p.1 ∧ D.skip (.fin t) p.2 = s p.2 := by
    clear hg
    induction g with
    | nil => simp
    | cons p g ih =>
      refine ((ih.and (hs p.1)).and (hs p.2)).mono fun t ht q hq => ?_
      rcases List.mem_cons.mp hq with rfl | hq
      · exact ⟨ht.1.2, ht.2⟩
      · exact ht.1.1 q hq
  let D' : Dialect XR := { D with skip := fun _ => s }
  refine Ev.congr (Y := fun _ => lse D' .nan g) ((hg.and hall).mono fun t ht => ?_) ?_
  · beta_reduce
    rw [ht.1]
    unfold lse
    rw [lseSums_congr (D := D) (D' := D') g (fun _ => rfl) ht.2]
  · unfold lse
    dsimp only
    split
    · exact .err _
    · exact .ok (pconst_of _)

/-- gate `j` has a phase -/
def FSome (Z : ℝ → Buf XR) (j : Int) : Prop := PConst fun t => (Z t).mem j

theorem ev_set {n : Nat} {Z : ℝ → Buf XR} (h : FBuf n Z) (chk : Bool) (name : String) (j : Int) {v : ℝ → XR}
    (hv : FVal v) : Ev (fun t => (Z t).set chk name j (v t))
      (fun W => FBuf n W ∧ (∀ t, (W t).mem j = v t) ∧ ∀ k ≠ j, ∀ t, (W t).mem k = (Z t).mem k) := by
  obtain ⟨L, hL⟩ := h.len
  unfold Buf.set Buf.has
  by_cases hc : (chk && !(decide (0 ≤ j) && decide (j < L))) = true
  · refine .inl ⟨.outOfBounds name j, hL.mono fun t ht => ?_⟩
    beta_reduce
    rw [ht, if_pos hc]
  · refine Ev.congr (Y := fun t => .ok ⟨(Z t).len, fun k => if k = j then v t else (Z t).mem k⟩) (hL.mono fun t ht => by beta_reduce; rw [ht, if_neg hc])
      (Ev.ok (V := fun t => (⟨(Z t).len, fun k => if k = j then v t else (Z t).mem k⟩ : Buf XR)) ?_)
    refine ⟨⟨⟨L, hL⟩, fun k k0 k1 => ?_⟩, fun t => by simp, fun k hk t => by simp [hk]⟩
    dsimp only
    by_cases hkj : k = j
    · simpa only [hkj, if_true] using hv
    · simpa only [hkj, if_false] using h.val k k0 k1

theorem fval_of {v : ℝ → XR} (h : PConst v) : FVal v := by
  obtain ⟨c, hc⟩ := h
  exact ⟨some c, hc⟩

theorem ev_fill {ab : ℝ → XR × XR} (hab : PConst ab)
    {z : ℝ → Buf XR} (hz : FBuf R.n z) (chk : Bool) (js : List Int) (hj : ∀ j ∈ js, 0 ≤ j ∧ j < R.n) (S : List Int)
    (hS : ∀ j ∈ S, FSome z j) :
    Ev (fun t => fill D chk (flagged R x d t) (ab t) js (z t)) (fun W => FBuf R.n W ∧ ∀ j ∈ S ++ js, FSome W j) := by
  have hrng : ∀ t, (flagged R x d t).rng = R.rng := fun _ => rfl
  have hbad : ∀ t, (flagged R x d t).bad = .fin t := fun _ => rfl
  induction js generalizing z S with
  | nil => exact .ok ⟨hz, by simpa using hS⟩
  | cons j js ih =>
    have hj' := hj j (by simp)
    unfold fill at ih ⊢
    simp only [List.foldlM_cons, hrng, hbad] at ih ⊢
    refine Ev.bind (P := fun W => FBuf R.n W ∧ ∀ k ∈ S ++ [j], FSome W k) ?_ fun W hW => ?_
    · refine Ev.bind (P := fun V => ∀ t, V t = (z t).mem j) (ev_rd hz.len (fun _ => rfl) chk _) fun V hV => ?_
      obtain ⟨o, ho⟩ := hz.val j hj'.1 hj'.2
      have he := fval_eq o
      cases o with
      | some v =>
        refine Ev.congr (Y := fun t => .ok (z t)) ((ho.and he).mono fun t ht => by beta_reduce at ht ⊢; rw [hV, ht.1, ht.2]; rfl) (.ok ⟨hz, fun k hk => ?_⟩)
        rcases List.mem_append.mp hk with hk | hk
        · exact hS k hk
        · simp only [List.mem_singleton] at hk; subst hk; exact ⟨v, ho⟩
      | none =>
        refine Ev.congr (Y := fun t => do
            let r ← rd chk "rng" R.rng j
            (z t).set chk "z" j (f32 (D.w ((ab t).1 * r) + (ab t).2))) ((ho.and he).mono fun t ht => by beta_reduce at ht ⊢; rw [hV, ht.1, ht.2]; rfl) ?_
        refine (ev_rd_const R.rng chk _ j).bind fun W hW => ?_
        obtain ⟨c, hab⟩ := hab
        have hval : PConst fun t => (f32 (D.w ((ab t).1 * W t) + (ab t).2) : XR) := ⟨_, hab.mono fun t ht => by
          beta_reduce; rw [ht, hW]⟩
        refine (ev_set hz chk _ j (fval_of hval)).mono fun Y hY => ⟨hY.1, fun k hk => ?_⟩
        by_cases hkj : k = j
        · subst hkj
          obtain ⟨q, hq⟩ := hval
          exact ⟨q, hq.mono fun t ht => by beta_reduce; rw [hY.2.1]; exact ht⟩
        · rcases List.mem_append.mp hk with hk | hk
          · obtain ⟨v, hv⟩ := hS k hk
            exact ⟨v, hv.mono fun t ht => by beta_reduce; rw [hY.2.2 k hkj]; exact ht⟩
          · simp only [List.mem_singleton] at hk; exact absurd hk hkj
    · have := ih hW.1 (fun k hk => hj k (by simp [hk])) (S ++ [j]) hW.2
      simpa using this

/-- a window without missing phases -/
theorem ev_firSum {z : ℝ → Buf XR} (hl : ∃ L, ∀ᶠ t in cofinite, (z t).len = L) (chk : Bool) (lo : Int) (js : List Int)
    (hfull : ∀ j ∈ js, FSome z j) : Ev (fun t => firSum D chk (flagged R x d t) (z t) lo js) PConst := by
  have hcf : ∀ t, (flagged R x d t).coef = R.coef := fun _ => rfl
  unfold firSum
  simp only [hcf]
  refine Ev.foldlM (pconst_of _) fun j hj A hA => ?_
  refine (ev_rd_const R.coef chk _ _).bind fun C hC => ?_
  refine Ev.bind (P := PConst) (ev_rd hl (hfull j hj) chk _) fun V hV => .ok ?_
  obtain ⟨a, hA⟩ := hA
  obtain ⟨v, hV⟩ := hV
  exact ⟨_, (hA.and hV).mono fun t ht => by beta_reduce; rw [ht.1, ht.2, hC]⟩

theorem ev_firGate (hD : Skips D) {sd : ℝ → Buf XR} (hs : PCBuf R.n sd) {yz : ℝ → Buf XR × Buf XR} (hy : FBuf R.n fun t => (yz t).1)
    (hz : FBuf R.n fun t => (yz t).2) (chk : Bool) {i : Int} (h0 : R.half ≤ i) (h1 : i < (R.n : Int) - R.half) :
    Ev (fun t => firGate D chk (flagged R x d t) (sd t) (yz t) i)
      (fun W => (FBuf R.n fun t => (W t).1) ∧ FBuf R.n fun t => (W t).2) := by
  have hhalf : ∀ t, (flagged R x d t).half = R.half := fun _ => rfl
  have hord : ∀ t, (flagged R x d t).order = R.order := fun _ => rfl
  have hgain : ∀ t, (flagged R x d t).gain = R.gain := fun _ => rfl
  have hbad : ∀ t, (flagged R x d t).bad = .fin t := fun _ => rfl
  have hh2 : (R.half : Int) = ((R.order / 2 : Nat) : Int) := rfl
  have hj : ∀ j ∈ rangeI (i - R.half) (i + R.half + 1), 0 ≤ j ∧ j < R.n := by
    intro j hj; have := mem_rangeI.mp hj; omega
  unfold firGate
  simp only [hhalf, hord, hgain, hbad]
  refine (ev_good hs hz chk (by omega) (by omega)).bind fun B hB => ?_
  obtain ⟨b, hB⟩ := hB
  cases b with
  | false => exact Ev.congr (Y := fun t => .ok (yz t)) (hB.mono fun t ht => by beta_reduce; rw [ht]; rfl) (.ok ⟨hy, hz⟩)
  | true =>
    have hcol := ev_collect (x := x) (d := d) hs hz chk hj
    rcases hcol with ⟨e, he⟩ | ⟨P, hP, g', hg⟩
    · exact .inl ⟨e, (hB.and he).mono fun t ht' => by beta_reduce at ht' ⊢; rw [ht'.1, if_pos rfl, ht'.2]; rfl⟩
    · have hlen : ∀ᶠ t in cofinite, (P t).length = g'.length := hg.mono fun t ht' => by rw [ht']
      by_cases hc : (D.w (PyFloat.ofNat g'.length) >. D.w (D.w (0.8 : XR) * D.w (PyFloat.ofNat R.order))) = true
      · have tail : ∀ {z' : ℝ → Buf XR}, FBuf R.n z' → (∀ j ∈ rangeI (i - R.half) (i + R.half + 1), FSome z' j) →
            Ev (fun t => do
              let A ← firSum D chk (flagged R x d t) (z' t) (i - R.half) (rangeI (i - R.half) (i + R.half + 1))
              let y ← (yz t).1.set chk "y" i (f32 (A * R.gain))
              .ok (y, z' t)) (fun W => (FBuf R.n fun t => (W t).1) ∧ FBuf R.n fun t => (W t).2) := by
          intro z' hz' hfull
          refine (ev_firSum hz'.len chk _ _ hfull).bind fun A hA => ?_
          obtain ⟨a, hA⟩ := hA
          refine (ev_set hy chk _ i (v := fun t => f32 (A t * R.gain)) ⟨some (f32 (a * R.gain)), hA.mono fun t ht => by beta_reduce; rw [ht]; rfl⟩).bind
            fun Y hY => .ok ⟨hY.1, hz'⟩
        by_cases hf : g'.length < R.order + 1
        · refine Ev.congr (Y := fun t => do
            let ab ← lse D (.fin t) (P t)
            let z' ← fill D chk (flagged R x d t) ab (rangeI (i - R.half) (i + R.half + 1)) (yz t).2
            let A ← firSum D chk (flagged R x d t) z' (i - R.half) (rangeI (i - R.half) (i + R.half + 1))
            let y ← (yz t).1.set chk "y" i (f32 (A * R.gain))
            .ok (y, z')) (((hB.and hP).and hlen).mono fun t ht' => ?_) ?_
          · beta_reduce at ht' ⊢
            rw [ht'.1.1, if_pos rfl, ht'.1.2]
            simp only [Bind.bind, Except.bind, ht'.2, hc, hf, if_true]
            cases lse D (.fin t) (P t) <;> rfl
          · refine (ev_lse hD ⟨g', hg⟩).bind fun ab hab => ?_
            refine (ev_fill hab hz chk _ hj [] (by simp)).bind fun z' hz' => ?_
            exact tail hz'.1 (by simpa using hz'.2)
        · refine Ev.congr (Y := fun t => do
            let A ← firSum D chk (flagged R x d t) (yz t).2 (i - R.half) (rangeI (i - R.half) (i + R.half + 1))
            let y ← (yz t).1.set chk "y" i (f32 (A * R.gain))
            .ok (y, (yz t).2)) (((hB.and hP).and hlen).mono fun t ht' => ?_) (tail hz fun j hjm => ?_)
          · beta_reduce at ht' ⊢
            rw [ht'.1.1, if_pos rfl, ht'.1.2]
            simp only [Bind.bind, Except.bind, ht'.2, hc, hf, if_true, if_false]
          · obtain ⟨o, ho⟩ := hz.val j (hj j hjm).1 (hj j hjm).2
            cases o with
            | some v => exact ⟨v, ho⟩
            | none =>
              exfalso
              obtain ⟨t, ⟨ht1, ht2⟩, ht3⟩ := ((hP.and hlen).and ho).exists
              have hcv := collect_val ht1
              have : (P t).length < (rangeI (i - R.half) (i + R.half + 1)).length := by
                rw [hcv, List.length_map, List.length_filter_lt_length_iff_exists]
                refine ⟨j, hjm, ?_⟩
                dsimp only at ht3
                rw [ht3, hbad]
                simp [fval, PyFloat.ne]
              rw [length_rangeI, ht2] at this
              omega
      · refine Ev.congr (Y := fun t => .ok (yz t)) (((hB.and hP).and hlen).mono fun t ht' => ?_) (.ok ⟨hy, hz⟩)
        beta_reduce at ht' ⊢
        rw [ht'.1.1, if_pos rfl, ht'.1.2]
        simp only [Bind.bind, Except.bind, ht'.2, hc, Bool.false_eq_true, if_false]

theorem ev_firPass (hD : Skips D) {sd : ℝ → Buf XR} (hs : PCBuf R.n sd) {yz : ℝ → Buf XR × Buf XR} (hy : FBuf R.n fun t => (yz t).1)
    (hz : FBuf R.n fun t => (yz t).2) (chk : Bool) :
    Ev (fun t => firPass D chk (flagged R x d t) (sd t) (yz t))
      (fun W => (FBuf R.n fun t => (W t).1) ∧ FBuf R.n fun t => (W t).2) := by
  have hhalf : ∀ t, (flagged R x d t).half = R.half := fun _ => rfl
  have hn : ∀ t, (flagged R x d t).n = R.n := fun _ => rfl
  unfold firPass
  simp only [hhalf, hn]
  refine (Ev.foldlM (P := fun W : ℝ → Buf XR × Buf XR => (FBuf R.n fun t => (W t).1) ∧ FBuf R.n fun t => (W t).2)
    ⟨hy, hz⟩ fun i hi s hs' => ?_).bind fun W hW => .ok ⟨hW.1, hW.1⟩
  have := mem_rangeI.mp hi
  exact ev_firGate hD hs hs'.1 hs'.2 chk this.1 this.2

theorem ev_firPasses (hD : Skips D) {sd : ℝ → Buf XR} (hs : PCBuf R.n sd) (chk : Bool) (k : Nat)
    {yz : ℝ → Buf XR × Buf XR} (hy : FBuf R.n fun t => (yz t).1) (hz : FBuf R.n fun t => (yz t).2) :
    Ev (fun t => firPasses D chk (flagged R x d t) (sd t) k (yz t)) (fun W => FBuf R.n fun t => (W t).2) := by
  induction k generalizing yz with
  | zero => exact .ok hz
  | succ k ih =>
    unfold firPasses
    exact (ev_firPass hD hs hy hz chk).bind fun W hW => ih hW.1 hW.2

/-! ## KDP -/

/-- a KDP and the window size carried along -/
def FKd (V : ℝ → XR × Int) : Prop := ∃ (o : Option XR) (m : Int), ∀ᶠ t in cofinite, V t = (fval t o, m)

theorem ev_kdpGate (hD : Skips D) (hw : D.winEnd ≤ 1)
    {z : ℝ → Buf XR} (hz : FBuf R.n z) (chk : Bool) (m0 : Int) (i : Int) :
    Ev (fun t => kdpGate D chk (flagged R x d t) (z t) m0 i) FKd := by
  have hn : ∀ t, (flagged R x d t).n = R.n := fun _ => rfl
  have hbad : ∀ t, (flagged R x d t).bad = .fin t := fun _ => rfl
  have hnad : ∀ t d' m, nadpOf (flagged R x d t) d' m = nadpOf R d' m := fun _ _ _ => rfl
  unfold kdpGate
  simp only [hn, hbad, hnad]
  refine Ev.bind (P := fun V => ∀ t, V t = fval t (d i)) (ev_rd (Z := fun t => (flagged R x d t).dz) ⟨R.dz.len, Eventually.of_forall fun _ => rfl⟩ (fun _ => rfl) chk _) fun E hE => ?_
  have hne := fval_ne (d i)
  simp only [hE]
  cases hd : d i with
  | none =>
    rw [hd] at hne
    refine Ev.congr (Y := fun t => .ok (.fin t, m0)) (hne.mono fun t ht => by beta_reduce; rw [ht]; rfl)
      (Ev.ok (V := fun t => (XR.fin t, m0)) ⟨none, m0, Eventually.of_forall fun _ => rfl⟩)
  | some v =>
    rw [hd] at hne
    set m1 := nadpOf R v m0 with hm1
    refine Ev.congr (Y := fun t => do
      let pts ← (if 0 ≤ i - m1 / 2 ∧ i + m1 / 2 ≤ (R.n : Int) - 1 then
          kdpCollect chk (flagged R x d t) (z t) (rangeI (i - m1 / 2) (i + m1 / 2 + D.winEnd)) else .ok [] : Except PyErr (List (XR × XR)))
      if (D.w (PyFloat.ofNat pts.length) >. D.w (D.w (0.8 : XR) * D.w (PyFloat.ofInt m1))) = true then do
        let ab ← lse D (.fin t) pts
        .ok (f32 (0.5 * ab.1), m1)
      else .ok (.fin t, m1)) (hne.mono fun t ht => ?_) ?_
    · beta_reduce
      rw [ht]; rfl
    refine Ev.bind (P := PConst) ?_ fun P hP => ?_
    · split
      · refine ev_kdpCollect hz chk fun j hj => ?_
        have := mem_rangeI.mp hj
        omega
      · exact .ok (pconst_of _)
    · have hP' := hP
      obtain ⟨g, hg⟩ := hP'
      by_cases hc : (D.w (PyFloat.ofNat g.length) >. D.w (D.w (0.8 : XR) * D.w (PyFloat.ofInt m1))) = true
      · refine Ev.congr (Y := fun t => do
          let ab ← lse D (.fin t) (P t)
          .ok (f32 ((0.5 : XR) * ab.1), m1)) (hg.mono fun t ht => by beta_reduce; rw [ht, if_pos hc]) ?_
        refine (ev_lse hD hP).bind fun ab hab => .ok ?_
        obtain ⟨a, hab⟩ := hab
        exact ⟨some (f32 ((0.5 : XR) * a.1)), m1, hab.mono fun t ht => by beta_reduce; rw [ht]; rfl⟩
      · exact Ev.congr (Y := fun t => .ok (.fin t, m1)) (hg.mono fun t ht => by beta_reduce; rw [ht, if_neg hc])
          (Ev.ok (V := fun t => (XR.fin t, m1)) ⟨none, m1, Eventually.of_forall fun _ => rfl⟩)

theorem ev_kdpLoop (hD : Skips D) (hw : D.winEnd ≤ 1)
    {z : ℝ → Buf XR} (hz : FBuf R.n z) (chk : Bool) (is : List Int) (m : Int) :
    Ev (fun t => kdpLoop D chk (flagged R x d t) (z t) is m) FList := by
  induction is generalizing m with
  | nil => exact .ok ⟨[], Eventually.of_forall fun _ => rfl⟩
  | cons i is ih =>
    unfold kdpLoop
    refine (ev_kdpGate hD hw hz chk m i).bind fun P hP => ?_
    obtain ⟨o, m1, hP⟩ := hP
    refine Ev.congr (Y := fun t => do
      let ks ← kdpLoop D chk (flagged R x d t) (z t) is m1
      .ok (fval t o :: ks)) (hP.mono fun t ht => by beta_reduce; rw [ht]) ?_
    refine (ih m1).bind fun K hK => .ok ?_
    obtain ⟨k, hK⟩ := hK
    exact ⟨o :: k, hK.mono fun t ht => by beta_reduce; rw [ht]; rfl⟩

/-- a result in which gates are missing or have a value; the standard deviation is never missing -/
structure Res where
  kd : List (Option XR)
  dp : List (Option XR)
  sd : List XR

/-- the arrays returned when missing values are marked by `t` -/
def Res.out (r : Res) (t : ℝ) : RayOut XR := ⟨r.kd.map (fval t), r.dp.map (fval t), r.sd⟩

theorem ev_calc (hD : Skips D) (hw : D.winEnd ≤ 1) (chk : Bool) :
    Ev (fun t => calcKdpRayFir D chk (flagged R x d t)) (fun V => ∃ r : Res, ∀ᶠ t in cofinite, V t = r.out t) := by
  have hn : ∀ t, (flagged R x d t).n = R.n := fun _ => rfl
  have hnf' : ∀ t, (flagged R x d t).nf = R.nf := fun _ => rfl
  have hnad : ∀ t, (flagged R x d t).nadp0 = R.nadp0 := fun _ => rfl
  have hbad : ∀ t, (flagged R x d t).bad = .fin t := fun _ => rfl
  unfold calcKdpRayFir
  simp only [hn, hnf', hnad, hbad]
  refine Ev.bind (P := fun Z => FBuf R.n fun t => ofList R.n (Z t)) ?_ fun Z hZ => ?_
  · have h1 := ev_mapM (l := gates R.n) (f := fun t => rd chk "dp" (flagged R x d t).dp) fun j _ =>
      ev_rd (A := FVal) (Z := fun t => (flagged R x d t).dp) ⟨R.dp.len, Eventually.of_forall fun _ => rfl⟩ ⟨x j, Eventually.of_forall fun _ => rfl⟩ chk _
    rcases h1 with h1 | ⟨V, hV, s, hs'⟩
    · exact .inl h1
    · refine .inr ⟨V, hV, ⟨⟨R.n, Eventually.of_forall fun _ => rfl⟩, fun j j0 j1 => ?_⟩⟩
      obtain ⟨q, rfl⟩ : ∃ q : Nat, j = q := ⟨j.toNat, by omega⟩
      have hlen : s.length = R.n := by
        obtain ⟨t, h2, h3⟩ := (hV.and hs').exists
        have := (mapM_get h2).1
        rw [h3, gates_length] at this
        simpa using this
      refine ⟨s[q]'(by omega), hs'.mono fun t ht' => ?_⟩
      beta_reduce
      rw [ofList_get _ _ q (by rw [ht']; simp; omega)]
      simp [ht']
  · refine (ev_mapM_const fun j _ => ev_sdAt chk j).bind fun S hS => ?_
    obtain ⟨sd, hS⟩ := hS
    have hSB : PCBuf R.n fun t => ofList R.n (S t) :=
      ⟨⟨R.n, Eventually.of_forall fun _ => rfl⟩, fun j _ _ => ⟨(ofList R.n sd).mem j, hS.mono fun t ht' => by beta_reduce; rw [ht']⟩⟩
    have hY : FBuf R.n fun t => ofList R.n (List.replicate R.n (.fin t)) := by
      refine ⟨⟨R.n, Eventually.of_forall fun _ => rfl⟩, fun j j0 j1 => ⟨none, Eventually.of_forall fun t => ?_⟩⟩
      obtain ⟨q, rfl⟩ : ∃ q : Nat, j = q := ⟨j.toNat, by omega⟩
      beta_reduce
      rw [ofList_get _ _ q (by simp; omega)]; simp [fval]
    refine (ev_firPasses hD hSB chk R.nf (yz := fun t => (_, _)) hY hZ).bind fun W hW => ?_
    refine (ev_kdpLoop hD hw hW chk (gates R.n) R.nadp0).bind fun K hK => .ok ?_
    obtain ⟨kd, hK⟩ := hK
    have hval : ∀ i : Fin R.n, ∃ o : Option XR, ∀ᶠ t in cofinite, (W t).2.mem (i.val : Int) = fval t o := fun i => hW.val i.val (by omega) (by omega)
    choose o ho using hval
    have hall : ∀ᶠ t in cofinite, ∀ i : Fin R.n, (W t).2.mem (i.val : Int) = fval t (o i) := by
      rw [eventually_all]; exact ho
    refine ⟨⟨kd, List.ofFn o, sd⟩, ((hK.and hS).and hall).mono fun t ht => ?_⟩
    beta_reduce
    unfold Res.out
    rw [ht.1.1, ht.1.2]
    congr 1
    apply List.ext_getElem
    · simp [gates, rangeI]
    · intro i h1 h2
      simp only [List.length_map, gates_length] at h1
      simpa [gates, rangeI] using ht.2 ⟨i, h1⟩

end Csu.Kdp.Flag
