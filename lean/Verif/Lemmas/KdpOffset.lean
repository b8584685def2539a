import Verif.Lemmas.KdpAffine
import Mathlib.Order.Filter.Cofinite
/-! A ray whose good phases are all shifted by `t`, for all but finitely many `t`. -/
namespace Csu.Kdp
open Csu PyFloat XR KdpSpec Filter

/-- A value as a function of the shift: missing (the bad value `β`), or `x + κ t`. -/
def sval (β κ : ℝ) : Option ℝ → ℝ → XR
  | none, _ => .fin β
  | some x, t => .fin (x + κ * t)

/-- The ray with phases `x`, the good ones shifted by `t`, the missing ones marked by `β`. -/
def shifted (R : Ray XR) (β : ℝ) (x : Int → Option ℝ) (t : ℝ) : Ray XR :=
  { R with dp := ⟨R.dp.len, fun j => sval β 1 (x j) t⟩ }

/-! ## Families of runs -/

/-- for all but finitely many `t` the runs fail in the same way, or all succeed with results described by `P` -/
def Ev {A : Type} (X : ℝ → Except PyErr A) (P : (ℝ → A) → Prop) : Prop :=
  (∃ e, ∀ᶠ t in cofinite, X t = .error e) ∨ ∃ V : ℝ → A, (∀ᶠ t in cofinite, X t = .ok (V t)) ∧ P V

theorem Ev.ok {A : Type} {V : ℝ → A} {P : (ℝ → A) → Prop} (h : P V) : Ev (fun t => .ok (V t)) P :=
  .inr ⟨V, Eventually.of_forall fun _ => rfl, h⟩

theorem Ev.err {A : Type} (e : PyErr) {P : (ℝ → A) → Prop} : Ev (fun _ => .error e) P :=
  .inl ⟨e, Eventually.of_forall fun _ => rfl⟩

theorem Ev.congr {A : Type} {X Y : ℝ → Except PyErr A} {P : (ℝ → A) → Prop} (h : ∀ᶠ t in cofinite, X t = Y t) (hY : Ev Y P) : Ev X P := by
  rcases hY with ⟨e, he⟩ | ⟨V, hV, hP⟩
  · exact .inl ⟨e, (h.and he).mono fun t ht => ht.1.trans ht.2⟩
  · exact .inr ⟨V, (h.and hV).mono fun t ht => ht.1.trans ht.2, hP⟩

theorem Ev.bind {A B : Type} {X : ℝ → Except PyErr A} {f : ℝ → A → Except PyErr B} {P : (ℝ → A) → Prop} {Q : (ℝ → B) → Prop}
    (h : Ev X P) (hf : ∀ V, P V → Ev (fun t => f t (V t)) Q) : Ev (fun t => X t >>= f t) Q := by
  rcases h with ⟨e, he⟩ | ⟨V, hV, hP⟩
  · exact .inl ⟨e, he.mono fun t ht => by beta_reduce; rw [ht]; rfl⟩
  · exact (hf V hP).congr (hV.mono fun t ht => by beta_reduce; rw [ht]; rfl)

theorem Ev.mono {A : Type} {X : ℝ → Except PyErr A} {P Q : (ℝ → A) → Prop} (h : Ev X P) (hPQ : ∀ V, P V → Q V) : Ev X Q := by
  rcases h with h | ⟨V, hV, hP⟩
  · exact .inl h
  · exact .inr ⟨V, hV, hPQ V hP⟩

theorem Ev.foldlM {β σ : Type} {P : (ℝ → σ) → Prop} {f : ℝ → σ → β → Except PyErr σ} {l : List β} {s : ℝ → σ}
    (h0 : P s) (h : ∀ x ∈ l, ∀ s, P s → Ev (fun t => f t (s t) x) P) : Ev (fun t => l.foldlM (f t) (s t)) P := by
  induction l generalizing s with
  | nil => exact .ok h0
  | cons x l ih =>
    simp only [List.foldlM_cons]
    exact (h x (by simp) s h0).bind (f := fun t v => l.foldlM (f t) v) fun V hV => ih hV fun y hy => h y (by simp [hy])

/-- eventually one and the same value -/
def PConst {A : Type} (V : ℝ → A) : Prop := ∃ v, ∀ᶠ t in cofinite, V t = v

/-- eventually a missing value, or `x + κ t` -/
def PVal (β κ : ℝ) (V : ℝ → XR) : Prop := ∃ s : Option ℝ, ∀ᶠ t in cofinite, V t = sval β κ s t

/-- an array of such values -/
structure PBuf (β κ : ℝ) (n : Nat) (Z : ℝ → Buf XR) : Prop where
  len : ∃ L, ∀ᶠ t in cofinite, (Z t).len = L
  val : ∀ j : Int, 0 ≤ j → j < n → PVal β κ (fun t => (Z t).mem j)

theorem ev_rd {A : (ℝ → XR) → Prop} {Z : ℝ → Buf XR} (hl : ∃ L, ∀ᶠ t in cofinite, (Z t).len = L) {j : Int} (hv : A (fun t => (Z t).mem j))
    (chk : Bool) (name : String) : Ev (fun t => rd chk name (Z t) j) A := by
  obtain ⟨L, hL⟩ := hl
  unfold rd Buf.has
  by_cases hc : (chk && !(decide (0 ≤ j) && decide (j < L))) = true
  · refine .inl ⟨.outOfBounds name j, hL.mono fun t ht => ?_⟩
    beta_reduce
    rw [ht, if_pos hc]
  · refine .inr ⟨_, hL.mono fun t ht => ?_, hv⟩
    beta_reduce
    rw [ht, if_neg hc]

theorem PBuf.rd {β κ : ℝ} {n : Nat} {Z : ℝ → Buf XR} (h : PBuf β κ n Z) (chk : Bool) (name : String) {j : Int} (h0 : 0 ≤ j)
    (h1 : j < n) : Ev (fun t => rd chk name (Z t) j) (PVal β κ) := ev_rd h.len (h.val j h0 h1) chk name

/-- all but finitely many values `x + κ t` differ from `β` -/
theorem off_bad {κ : ℝ} (hκ : κ ≠ 0) (x β : ℝ) : ∀ᶠ t in cofinite, x + κ * t ≠ β := by
  rw [eventually_cofinite]
  refine (Set.finite_singleton ((β - x) / κ)).subset fun t ht => ?_
  simp only [ne_eq, not_not, Set.mem_setOf_eq] at ht
  rw [Set.mem_singleton_iff, eq_div_iff hκ]
  linarith

theorem sval_eq {β κ : ℝ} (hκ : κ ≠ 0) (s : Option ℝ) : ∀ᶠ t in cofinite, (sval β κ s t ==. .fin β) = s.isNone := by
  cases s with
  | none => exact Eventually.of_forall fun t => by simp [sval]
  | some x => exact (off_bad hκ x β).mono fun t ht => by simp [sval, ht]

theorem sval_ne {β κ : ℝ} (hκ : κ ≠ 0) (s : Option ℝ) : ∀ᶠ t in cofinite, (sval β κ s t !=. .fin β) = s.isSome :=
  (sval_eq hκ s).mono fun t ht => by unfold PyFloat.ne; rw [ht]; cases s <;> rfl

variable {R : Ray XR} {β : ℝ} {x : Int → Option ℝ}

theorem PBuf.dp : PBuf β 1 R.n (fun t => (shifted R β x t).dp) :=
  ⟨⟨R.dp.len, Eventually.of_forall fun _ => rfl⟩, fun j _ _ => ⟨x j, Eventually.of_forall fun _ => rfl⟩⟩

/-! ## Standard deviation -/

/-- lists of values -/
def PList (β κ : ℝ) (V : ℝ → List XR) : Prop := ∃ s : List (Option ℝ), ∀ᶠ t in cofinite, V t = s.map (fun o => sval β κ o t)

theorem ev_mapM {l : List Int} {f : ℝ → Int → Except PyErr XR} {κ : ℝ} (h : ∀ j ∈ l, Ev (fun t => f t j) (PVal β κ)) :
    Ev (fun t => l.mapM (f t)) (PList β κ) := by
  induction l with
  | nil => exact .ok ⟨[], Eventually.of_forall fun _ => rfl⟩
  | cons j l ih =>
    simp only [List.mapM_cons]
    refine (h j (by simp)).bind fun V hV => (ih fun k hk => h k (by simp [hk])).bind fun W hW => .ok ?_
    obtain ⟨s, hs⟩ := hV
    obtain ⟨ss, hss⟩ := hW
    exact ⟨s :: ss, (hs.and hss).mono fun t ht => by beta_reduce; rw [ht.1, ht.2]; rfl⟩

theorem ev_mapM_const {A : Type} {l : List Int} {f : ℝ → Int → Except PyErr A} (h : ∀ j ∈ l, Ev (fun t => f t j) PConst) :
    Ev (fun t => l.mapM (f t)) PConst := by
  induction l with
  | nil => exact .ok ⟨[], Eventually.of_forall fun _ => rfl⟩
  | cons j l ih =>
    simp only [List.mapM_cons]
    refine (h j (by simp)).bind fun V hV => (ih fun k hk => h k (by simp [hk])).bind fun W hW => .ok ?_
    obtain ⟨s, hs⟩ := hV
    obtain ⟨ss, hss⟩ := hW
    exact ⟨s :: ss, (hs.and hss).mono fun t ht => by beta_reduce; rw [ht.1, ht.2]⟩

theorem good_filter {κ : ℝ} (hκ : κ ≠ 0) (s : List (Option ℝ)) :
    ∀ᶠ t in cofinite, (s.map (fun o => sval β κ o t)).filter (fun v => v !=. .fin β) =
      (s.filterMap (fun o => o)).map (fun v => XR.fin (v + κ * t)) := by
  induction s with
  | nil => exact Eventually.of_forall fun _ => rfl
  | cons o s ih =>
    refine (ih.and (sval_ne (β := β) hκ o)).mono fun t ht => ?_
    rw [List.map_cons, List.filter_cons, ht.2, ht.1]
    cases o <;> simp [sval]

theorem ev_sdAt (hb : R.bad = .fin β) (hs : 1 ≤ R.stdGate) (chk : Bool) (i : Int) :
    Ev (fun t => sdAt cython chk (shifted R β x t) i) PConst := by
  have hpos : 0 ≤ R.halfStd := by unfold Ray.halfStd; omega
  have hn : ∀ t, (shifted R β x t).n = R.n := fun _ => rfl
  have hh : ∀ t, (shifted R β x t).halfStd = R.halfStd := fun _ => rfl
  have hbad : ∀ t, (shifted R β x t).bad = .fin β := fun _ => hb
  unfold sdAt
  simp only [wx, XR.ff32]
  simp only [hh, hn, hbad]
  split
  · refine Ev.bind (P := PList β 1) (ev_mapM fun j hj => ?_) fun V hV => ?_
    · have := mem_rangeI.mp hj
      exact PBuf.dp.rd chk _ (by omega) (by omega)
    · obtain ⟨s, hs⟩ := hV
      set l := s.filterMap (fun o => o) with hl
      have hf := good_filter (β := β) (κ := 1) one_ne_zero s
      -- the count
      have hN : ∀ᶠ t in cofinite, ((V t).foldl (sdStep cython (.fin β)) ⟨0, 0.0, 0.0, 0.0⟩).N = l.length := by
        refine (hs.and hf).mono fun t ht => ?_
        rw [sd_count, ht.1, ht.2]; simp [hl]
      by_cases hgt : (l.length : Int) > R.halfStd
      · have hne : l ≠ [] := by rintro h; rw [h] at hgt; simp at hgt; omega
        refine .inr ⟨fun _ => .fin (popStd l), ((hs.and hf).and hN).mono fun t ht => ?_, ⟨_, Eventually.of_forall fun _ => rfl⟩⟩
        obtain ⟨⟨h1, h2⟩, h3⟩ := ht
        have h0 : (((V t).foldl (sdStep cython (.fin β)) ⟨0, 0.0, 0.0, 0.0⟩).N == 0) = false := by
          rw [h3]; exact beq_false_of_ne (by have := List.length_pos_iff.mpr hne; omega)
        beta_reduce
        rw [if_pos (by rw [h3]; exact hgt), h0, Bool.and_false]
        simp only [Bool.false_eq_true, if_false]
        have e : ((V t).filter (fun v => v !=. .fin β)) = (l.map (Units.phase ⟨1, t, 1, 0⟩)).map XR.fin := by
          rw [h1, h2, List.map_map]
          apply List.map_congr_left
          intro v _
          simp [Units.phase]
        have hg : ∀ v ∈ l.map (Units.phase ⟨1, t, 1, 0⟩), (XR.fin v !=. .fin β) = true := by
          intro v hv
          have : XR.fin v ∈ (V t).filter (fun v => v !=. .fin β) := by rw [e]; exact List.mem_map_of_mem hv
          exact (List.mem_filter.mp this).2
        have hv := (sd_value cython (.fin β) _ hg (by simpa using hne)).2
        rw [← e, ← sd_skip] at hv
        rw [hv, popStd_chg (by simp)]
        simp
      · refine .inr ⟨fun _ => 100.0, hN.mono fun t ht => ?_, ⟨_, Eventually.of_forall fun _ => rfl⟩⟩
        beta_reduce
        rw [if_neg (by rw [ht]; exact hgt)]
  · exact .ok ⟨_, Eventually.of_forall fun _ => rfl⟩

/-! ## The filter -/

/-- constant arrays -/
structure PCBuf (n : Nat) (Z : ℝ → Buf XR) : Prop where
  len : ∃ L, ∀ᶠ t in cofinite, (Z t).len = L
  val : ∀ j : Int, 0 ≤ j → j < n → PConst (fun t => (Z t).mem j)

theorem pconst_of {A : Type} (a : A) : PConst (fun _ : ℝ => a) := ⟨a, Eventually.of_forall fun _ => rfl⟩

theorem ev_rd_const (b : Buf XR) (chk : Bool) (name : String) (j : Int) : Ev (fun _ => rd chk name b j) (fun V => ∀ t, V t = b.mem j) := by
  unfold rd
  split
  · exact .err _
  · exact .ok fun _ => rfl

theorem ev_good (hb : R.bad = .fin β) {κ : ℝ} (hκ : κ ≠ 0) {sd z : ℝ → Buf XR} (hs : PCBuf R.n sd) (hz : PBuf β κ R.n z) (chk : Bool)
    {j : Int} (h0 : 0 ≤ j) (h1 : j < R.n) : Ev (fun t => good chk (shifted R β x t) (sd t) (z t) j) PConst := by
  have hth : ∀ t, (shifted R β x t).thsd = R.thsd := fun _ => rfl
  have hbad : ∀ t, (shifted R β x t).bad = .fin β := fun _ => hb
  unfold good
  simp only [hth, hbad]
  refine (ev_rd hs.len (hs.val j h0 h1) chk _).bind fun S hS => (ev_rd_const R.thsd chk _ j).bind fun T hT => ?_
  obtain ⟨s, hS⟩ := hS
  by_cases hc : (s <=. R.thsd.mem j) = true
  · refine Ev.congr (Y := fun t => do let v ← rd chk "z" (z t) j; .ok (v !=. .fin β)) (hS.mono fun t ht => ?_) ?_
    · beta_reduce
      rw [ht, hT, if_pos hc]
    · refine (hz.rd chk _ h0 h1).bind fun V hV => .ok ?_
      obtain ⟨o, ho⟩ := hV
      exact ⟨o.isSome, (ho.and (sval_ne hκ o)).mono fun t ht => by beta_reduce; rw [ht.1, ht.2]⟩
  · refine Ev.congr (Y := fun _ => .ok false) (hS.mono fun t ht => ?_) (.ok (pconst_of _))
    beta_reduce
    rw [ht, hT, if_neg hc]

/-- samples at ranges `p.1`, phases `p.2 + κ t` -/
def PPts (κ : ℝ) (V : ℝ → List (XR × XR)) : Prop :=
  ∃ g : List (ℝ × ℝ), ∀ᶠ t in cofinite, V t = (g.map (chg 1 (κ * t) 1 0)).map lift

theorem ev_push {κ : ℝ} {V : ℝ → List (XR × XR)} (hV : PPts κ V) {p : ℝ → XR × XR} {r v : ℝ}
    (hp : ∀ᶠ t in cofinite, p t = (.fin r, .fin (v + κ * t))) (chk : Bool) : Ev (fun t => push chk (V t) (p t)) (PPts κ) := by
  obtain ⟨g, hg⟩ := hV
  unfold push
  have hlen : ∀ᶠ t in cofinite, (V t).length = g.length := hg.mono fun t ht => by beta_reduce; rw [ht]; simp
  by_cases hc : (chk && decide (workSize ≤ g.length)) = true
  · refine .inl ⟨.outOfBounds "yy" g.length, hlen.mono fun t ht => ?_⟩
    beta_reduce
    rw [ht, if_pos hc]
  · refine .inr ⟨fun t => V t ++ [p t], hlen.mono fun t ht => ?_, ⟨g ++ [(r, v)], (hg.and hp).mono fun t ht => ?_⟩⟩
    · beta_reduce
      rw [ht, if_neg hc]
    · dsimp only
      beta_reduce
      rw [ht.1, ht.2]; simp [lift, chg, add_comm]

/-- ranges are numbers -/
def RealRanges (R : Ray XR) (r : Int → ℝ) : Prop := ∀ j : Int, 0 ≤ j → j < R.n → R.rng.mem j = .fin (r j)

theorem ev_collect (hb : R.bad = .fin β) {r : Int → ℝ} (hr : RealRanges R r) {κ : ℝ} (hκ : κ ≠ 0) {sd z : ℝ → Buf XR} (hs : PCBuf R.n sd)
    (hz : PBuf β κ R.n z) (chk : Bool) {js : List Int} (hj : ∀ j ∈ js, 0 ≤ j ∧ j < R.n) :
    Ev (fun t => collect chk (shifted R β x t) (sd t) (z t) js) (PPts κ) := by
  have hrng : ∀ t, (shifted R β x t).rng = R.rng := fun _ => rfl
  unfold collect
  simp only [hrng]
  refine Ev.foldlM ⟨[], Eventually.of_forall fun _ => rfl⟩ fun j hjm acc hacc => ?_
  have hj := hj j hjm
  -- is the sample missing?
  obtain ⟨o, ho⟩ := hz.val j hj.1 hj.2
  cases o with
  | none =>
    -- then it is not good
    have hg := ev_good (x := x) hb hκ hs hz chk hj.1 hj.2
    rcases hg with ⟨e, he⟩ | ⟨V, hV, b, hb'⟩
    · exact .inl ⟨e, he.mono fun t ht => by beta_reduce at ht ⊢; rw [ht]; rfl⟩
    · refine Ev.congr (Y := fun t => .ok (acc t)) ((hV.and ho).mono fun t ht => ?_) (.ok hacc)
      beta_reduce at ht ⊢
      rw [ht.1]
      have hv := good_val ht.1
      have hf : V t = false := by
        rw [hv, ht.2]
        show ((sd t).mem j <=. (shifted R β x t).thsd.mem j && (sval β κ none t !=. (shifted R β x t).bad)) = false
        rw [show (shifted R β x t).bad = .fin β from hb]
        simp [sval, PyFloat.ne]
      rw [hf]; rfl
  | some v =>
    refine (ev_good (x := x) hb hκ hs hz chk hj.1 hj.2).bind fun B hB => ?_
    obtain ⟨b, hB⟩ := hB
    cases b with
    | false => exact Ev.congr (Y := fun t => .ok (acc t)) (hB.mono fun t ht => by beta_reduce; rw [ht]; rfl) (.ok hacc)
    | true =>
      refine Ev.congr (Y := fun t => do
        let v ← rd chk "z" (z t) j
        let r ← rd chk "rng" R.rng j
        push chk (acc t) (r, v)) (hB.mono fun t ht => by beta_reduce; rw [ht]; rfl) ?_
      refine Ev.bind (P := fun V => ∀ᶠ t in cofinite, V t = sval β κ (some v) t) (ev_rd hz.len ho chk _) fun V hV => ?_
      refine (ev_rd_const R.rng chk _ j).bind fun W hW => ?_
      refine ev_push hacc (r := r j) (v := v) (hV.mono fun t ht => ?_) chk
      beta_reduce
      rw [ht, hW, hr j hj.1 hj.2]; rfl

theorem ev_kdpCollect (hb : R.bad = .fin β) {r : Int → ℝ} (hr : RealRanges R r) {κ : ℝ} (hκ : κ ≠ 0) {z : ℝ → Buf XR}
    (hz : PBuf β κ R.n z) (chk : Bool) {js : List Int} (hj : ∀ j ∈ js, 0 ≤ j ∧ j < R.n) :
    Ev (fun t => kdpCollect chk (shifted R β x t) (z t) js) (PPts κ) := by
  have hrng : ∀ t, (shifted R β x t).rng = R.rng := fun _ => rfl
  have hbad : ∀ t, (shifted R β x t).bad = .fin β := fun _ => hb
  unfold kdpCollect
  simp only [hrng, hbad]
  refine Ev.foldlM ⟨[], Eventually.of_forall fun _ => rfl⟩ fun j hjm acc hacc => ?_
  have hj := hj j hjm
  refine (hz.rd chk _ hj.1 hj.2).bind fun V hV => ?_
  obtain ⟨o, ho⟩ := hV
  have hne := sval_ne (β := β) hκ o
  cases o with
  | none =>
    refine Ev.congr (Y := fun t => .ok (acc t)) ((ho.and hne).mono fun t ht => ?_) (.ok hacc)
    beta_reduce
    rw [ht.1, ht.2]; rfl
  | some v =>
    refine Ev.congr (Y := fun t => do
        let r ← rd chk "rng" R.rng j
        push chk (acc t) (r, V t)) ((ho.and hne).mono fun t ht => by beta_reduce; rw [ht.1, ht.2]; rfl) ?_
    refine (ev_rd_const R.rng chk _ j).bind fun W hW => ?_
    refine ev_push hacc (r := r j) (v := v) (ho.mono fun t ht => ?_) chk
    beta_reduce
    rw [ht, hW, hr j hj.1 hj.2]; rfl

/-- slope and intercept -/
def PLine (κ : ℝ) (V : ℝ → XR × XR) : Prop := ∃ a b : ℝ, ∀ᶠ t in cofinite, V t = (.fin a, .fin (b + κ * t))

theorem ev_lse {κ : ℝ} (hκ : κ ≠ 0) {V : ℝ → List (XR × XR)} (hV : PPts κ V) :
    Ev (fun t => lse cython (.fin β) (V t)) (PLine κ) := by
  classical
  obtain ⟨g, hg⟩ := hV
  set k := g.filter (fun p => decide (p.1 ≠ β)) with hk
  have hkept : ∀ᶠ t in cofinite, kept cython (.fin β) (g.map (chg 1 (κ * t) 1 0)) = k.map (chg 1 (κ * t) 1 0) := by
    have : ∀ᶠ t in cofinite, ∀ p ∈ g, p.2 + κ * t ≠ β := by
      clear hg hk k
      induction g with
      | nil => simp
      | cons p g ih =>
        refine (ih.and (off_bad hκ p.2 β)).mono fun t ht => ?_
        intro q hq
        rcases List.mem_cons.mp hq with rfl | hq
        · exact ht.2
        · exact ht.1 q hq
    refine this.mono fun t ht => ?_
    unfold kept
    rw [List.filter_map, hk]
    congr 1
    apply List.filter_congr
    intro p hp
    show (!((XR.fin (1 * p.1 + 0) ==. .fin β) || (XR.fin (1 * p.2 + κ * t) ==. .fin β))) = _
    rw [feq, feq]
    have := ht p hp
    simp [this]
  by_cases hd : detR k = 0
  · refine .inl ⟨.zeroDivisionError, (hg.and hkept).mono fun t ht => ?_⟩
    beta_reduce
    rw [ht.1]
    refine C10_zero_division _ _ fun h2 => ?_
    rw [← kept_cython] at h2
    refine (detR_ne_zero_iff _).mpr h2 ?_
    rw [ht.2, chg_det, hd, mul_zero]
  · refine .inr ⟨fun t => (.fin (slopeR k), .fin (interR k + κ * t)), (hg.and hkept).mono fun t ht => ?_, ⟨_, _, Eventually.of_forall fun _ => rfl⟩⟩
    beta_reduce
    rw [ht.1, lse_val cython _ _ (by rw [ht.2, chg_det]; exact mul_ne_zero (by norm_num) hd), ht.2]
    have := chg_slope 1 (κ * t) one_ne_zero 0 k hd
    rw [this.1, this.2]
    simp

/-- gate `j` has a phase -/
def PSome (β κ : ℝ) (Z : ℝ → Buf XR) (j : Int) : Prop := ∃ v : ℝ, ∀ᶠ t in cofinite, (Z t).mem j = sval β κ (some v) t

theorem ev_set {κ : ℝ} {n : Nat} {Z : ℝ → Buf XR} (h : PBuf β κ n Z) (chk : Bool) (name : String) (j : Int) {v : ℝ → XR}
    (hv : PVal β κ v) : Ev (fun t => (Z t).set chk name j (v t))
      (fun W => PBuf β κ n W ∧ (∀ t, (W t).mem j = v t) ∧ ∀ k ≠ j, ∀ t, (W t).mem k = (Z t).mem k) := by
  obtain ⟨L, hL⟩ := h.len
  unfold Buf.set Buf.has
  by_cases hc : (chk && !(decide (0 ≤ j) && decide (j < L))) = true
  · refine .inl ⟨.outOfBounds name j, hL.mono fun t ht => ?_⟩
    beta_reduce
    rw [ht, if_pos hc]
  · refine Ev.congr (Y := fun t => .ok ⟨(Z t).len, fun k => if k = j then v t else (Z t).mem k⟩) (hL.mono fun t ht => by beta_reduce; rw [ht, if_neg hc])
      (Ev.ok (V := fun t => (⟨(Z t).len, fun k => if k = j then v t else (Z t).mem k⟩ : Buf XR)) ?_)
    refine ⟨⟨⟨L, hL⟩, fun k k0 k1 => ?_⟩, fun t => by simp, fun k hk t => by simp [hk]⟩
    dsimp only
    by_cases hkj : k = j
    · simpa only [hkj, if_true] using hv
    · simpa only [hkj, if_false] using h.val k k0 k1

theorem ev_fill (hb : R.bad = .fin β) {r : Int → ℝ} (hr : RealRanges R r) {κ : ℝ} (hκ : κ ≠ 0) {ab : ℝ → XR × XR} (hab : PLine κ ab)
    {z : ℝ → Buf XR} (hz : PBuf β κ R.n z) (chk : Bool) (js : List Int) (hj : ∀ j ∈ js, 0 ≤ j ∧ j < R.n) (S : List Int)
    (hS : ∀ j ∈ S, PSome β κ z j) :
    Ev (fun t => fill cython chk (shifted R β x t) (ab t) js (z t)) (fun W => PBuf β κ R.n W ∧ ∀ j ∈ S ++ js, PSome β κ W j) := by
  have hrng : ∀ t, (shifted R β x t).rng = R.rng := fun _ => rfl
  have hbad : ∀ t, (shifted R β x t).bad = .fin β := fun _ => hb
  induction js generalizing z S with
  | nil => exact .ok ⟨hz, by simpa using hS⟩
  | cons j js ih =>
    have hj' := hj j (by simp)
    unfold fill at ih ⊢
    simp only [wx, XR.ff32, List.foldlM_cons, hrng, hbad] at ih ⊢
    refine Ev.bind (P := fun W => PBuf β κ R.n W ∧ ∀ k ∈ S ++ [j], PSome β κ W k) ?_ fun W hW => ?_
    · refine Ev.bind (P := fun V => ∀ t, V t = (z t).mem j) (ev_rd hz.len (fun _ => rfl) chk _) fun V hV => ?_
      obtain ⟨o, ho⟩ := hz.val j hj'.1 hj'.2
      have he := sval_eq (β := β) hκ o
      cases o with
      | some v =>
        refine Ev.congr (Y := fun t => .ok (z t)) ((ho.and he).mono fun t ht => by beta_reduce at ht ⊢; rw [hV, ht.1, ht.2]; rfl) (.ok ⟨hz, fun k hk => ?_⟩)
        rcases List.mem_append.mp hk with hk | hk
        · exact hS k hk
        · simp only [List.mem_singleton] at hk; subst hk; exact ⟨v, ho⟩
      | none =>
        refine Ev.congr (Y := fun t => do
            let r ← rd chk "rng" R.rng j
            (z t).set chk "z" j ((ab t).1 * r + (ab t).2)) ((ho.and he).mono fun t ht => by beta_reduce at ht ⊢; rw [hV, ht.1, ht.2]; rfl) ?_
        refine (ev_rd_const R.rng chk _ j).bind fun W hW => ?_
        obtain ⟨a, b, hab⟩ := hab
        have hval : ∀ᶠ t in cofinite, (ab t).1 * W t + (ab t).2 = sval β κ (some (a * r j + b)) t := hab.mono fun t ht => by
          rw [ht, hW, hr j hj'.1 hj'.2]
          simp only [fmul, fadd, sval]
          congr 1; ring
        refine (ev_set hz chk _ j ⟨some (a * r j + b), hval⟩).mono fun Y hY => ⟨hY.1, fun k hk => ?_⟩
        by_cases hkj : k = j
        · subst hkj
          exact ⟨_, hval.mono fun t ht => by rw [hY.2.1]; exact ht⟩
        · rcases List.mem_append.mp hk with hk | hk
          · obtain ⟨v, hv⟩ := hS k hk
            exact ⟨v, hv.mono fun t ht => by rw [hY.2.2 k hkj]; exact ht⟩
          · simp only [List.mem_singleton] at hk; exact absurd hk hkj
    · have := ih hW.1 (fun k hk => hj k (by simp [hk])) (S ++ [j]) hW.2
      simpa using this

/-- the coefficients the filter reads, the gain, and their product `m` -/
structure Taps' (R : Ray XR) (w : Nat → ℝ) (g m : ℝ) : Prop where
  gain : R.gain = .fin g
  coef : ∀ k : Nat, k ≤ 2 * (R.order / 2) → R.coef.mem ((k : Int) + 1) = .fin (w k)
  m : m = g * ∑ k ∈ Finset.range (2 * (R.order / 2) + 1), w k

/-- a window without missing phases -/
theorem ev_firSum {w : Nat → ℝ} {g m : ℝ} (ht : Taps' R w g m) {κ : ℝ} {z : ℝ → Buf XR} (hz : PBuf β κ R.n z) (chk : Bool)
    {i : Int} (h0 : R.half ≤ i) (h1 : i < (R.n : Int) - R.half)
    (hfull : ∀ j ∈ rangeI (i - R.half) (i + R.half + 1), PSome β κ z j) :
    Ev (fun t => firSum cython chk (shifted R β x t) (z t) (i - R.half) (rangeI (i - R.half) (i + R.half + 1)))
      (fun A => ∃ a : ℝ, ∀ᶠ t in cofinite, A t * R.gain = sval β (m * κ) (some a) t) := by
  have hcf : ∀ t, (shifted R β x t).coef = R.coef := fun _ => rfl
  have hhalf : (R.half : Int) = ((R.order / 2 : Nat) : Int) := rfl
  have hr : rangeI (i - R.half) (i + R.half + 1) = (List.range (2 * (R.order / 2) + 1)).map (fun (k : Nat) => i - R.half + Int.ofNat k) := by
    unfold rangeI
    rw [show ((i + R.half + 1) - (i - R.half) : Int).toNat = 2 * (R.order / 2) + 1 by omega]
  have key : ∀ q : Nat, q ≤ 2 * (R.order / 2) + 1 →
      Ev (fun t => firSum cython chk (shifted R β x t) (z t) (i - R.half) ((List.range q).map (fun (k : Nat) => i - R.half + Int.ofNat k)))
      (fun A => ∃ a : ℝ, ∀ᶠ t in cofinite, A t = .fin (a + (∑ k ∈ Finset.range q, w k) * κ * t)) := by
    intro q
    induction q with
    | zero =>
      intro _
      have h00 : (0.0 : XR) = .fin 0 := by rw [fsci]; norm_num
      unfold firSum
      simp only [wx, XR.ff32]
      rw [h00]
      exact .ok ⟨0, Eventually.of_forall fun t => by simp⟩
    | succ q ih =>
      intro hq
      have ih := ih (by omega)
      unfold firSum at ih ⊢
      simp only [wx, XR.ff32] at ih ⊢
      simp only [hcf] at ih ⊢
      simp only [List.range_succ, List.map_append, List.foldlM_append]
      refine ih.bind fun A hA => ?_
      simp only [List.map_cons, List.map_nil, List.foldlM_cons, List.foldlM_nil]
      refine Ev.bind (P := fun A => ∃ a : ℝ, ∀ᶠ t in cofinite, A t = .fin (a + (∑ k ∈ Finset.range (q + 1), w k) * κ * t)) ?_ fun V hV => .ok hV
      have hidx : i - R.half + Int.ofNat q - (i - R.half) + (cython (α := XR)).coefOff = (q : Int) + 1 := by
        simp only [cython, Int.ofNat_eq_natCast]; omega
      rw [hidx]
      refine (ev_rd_const R.coef chk _ _).bind fun C hC => ?_
      obtain ⟨v, hv⟩ := hfull (i - R.half + Int.ofNat q) (by rw [mem_rangeI]; simp only [Int.ofNat_eq_natCast]; omega)
      refine Ev.bind (P := fun V => ∀ᶠ t in cofinite, V t = sval β κ (some v) t) (ev_rd hz.len hv chk _) fun V hV => .ok ?_
      obtain ⟨a, hA⟩ := hA
      refine ⟨a + w q * v, (hA.and hV).mono fun t ht' => ?_⟩
      beta_reduce
      rw [ht'.1, ht'.2, hC, ht.coef q (by omega)]
      simp only [sval, fmul, fadd, Finset.sum_range_succ]
      congr 1; ring
  rw [hr]
  refine (key (2 * (R.order / 2) + 1) le_rfl).mono fun A hA => ?_
  obtain ⟨a, hA⟩ := hA
  refine ⟨a * g, hA.mono fun t ht' => ?_⟩
  rw [ht', ht.gain, ht.m]
  simp only [fmul, sval]
  congr 1; ring

theorem ev_firGate (hb : R.bad = .fin β) {r : Int → ℝ} (hr : RealRanges R r) {w : Nat → ℝ} {g m : ℝ} (ht : Taps' R w g m) {κ : ℝ} (hκ : κ ≠ 0)
    {sd : ℝ → Buf XR} (hs : PCBuf R.n sd) {yz : ℝ → Buf XR × Buf XR} (hy : PBuf β (m * κ) R.n fun t => (yz t).1)
    (hz : PBuf β κ R.n fun t => (yz t).2) (chk : Bool) {i : Int} (h0 : R.half ≤ i) (h1 : i < (R.n : Int) - R.half) :
    Ev (fun t => firGate cython chk (shifted R β x t) (sd t) (yz t) i)
      (fun W => (PBuf β (m * κ) R.n fun t => (W t).1) ∧ PBuf β κ R.n fun t => (W t).2) := by
  have hhalf : ∀ t, (shifted R β x t).half = R.half := fun _ => rfl
  have hord : ∀ t, (shifted R β x t).order = R.order := fun _ => rfl
  have hgain : ∀ t, (shifted R β x t).gain = R.gain := fun _ => rfl
  have hbad : ∀ t, (shifted R β x t).bad = .fin β := fun _ => hb
  have hh2 : (R.half : Int) = ((R.order / 2 : Nat) : Int) := rfl
  have hj : ∀ j ∈ rangeI (i - R.half) (i + R.half + 1), 0 ≤ j ∧ j < R.n := by
    intro j hj; have := mem_rangeI.mp hj; omega
  unfold firGate
  simp only [wx, XR.ff32]
  simp only [hhalf, hord, hgain, hbad]
  refine (ev_good hb hκ hs hz chk (by omega) (by omega)).bind fun B hB => ?_
  obtain ⟨b, hB⟩ := hB
  cases b with
  | false => exact Ev.congr (Y := fun t => .ok (yz t)) (hB.mono fun t ht => by beta_reduce; rw [ht]; rfl) (.ok ⟨hy, hz⟩)
  | true =>
    have hcol := ev_collect (x := x) hb hr hκ hs hz chk hj
    rcases hcol with ⟨e, he⟩ | ⟨P, hP, g', hg⟩
    · exact .inl ⟨e, (hB.and he).mono fun t ht' => by beta_reduce at ht' ⊢; rw [ht'.1, if_pos rfl, ht'.2]; rfl⟩
    · have hlen : ∀ᶠ t in cofinite, (P t).length = g'.length := hg.mono fun t ht' => by rw [ht']; simp
      by_cases hc : (PyFloat.ofNat g'.length >. (0.8 : XR) * PyFloat.ofNat R.order) = true
      · -- the sum over the window z'
        have tail : ∀ {z' : ℝ → Buf XR}, PBuf β κ R.n z' → (∀ j ∈ rangeI (i - R.half) (i + R.half + 1), PSome β κ z' j) →
            Ev (fun t => do
              let A ← firSum cython chk (shifted R β x t) (z' t) (i - R.half) (rangeI (i - R.half) (i + R.half + 1))
              let y ← (yz t).1.set chk "y" i (A * R.gain)
              .ok (y, z' t)) (fun W => (PBuf β (m * κ) R.n fun t => (W t).1) ∧ PBuf β κ R.n fun t => (W t).2) := by
          intro z' hz' hfull
          refine (ev_firSum ht hz' chk h0 h1 hfull).bind fun A hA => ?_
          obtain ⟨a, hA⟩ := hA
          refine (ev_set hy chk _ i ⟨some a, hA⟩).bind fun Y hY => .ok ⟨hY.1, hz'⟩
        by_cases hf : g'.length < R.order + 1
        · refine Ev.congr (Y := fun t => do
            let ab ← lse cython (.fin β) (P t)
            let z' ← fill cython chk (shifted R β x t) ab (rangeI (i - R.half) (i + R.half + 1)) (yz t).2
            let A ← firSum cython chk (shifted R β x t) z' (i - R.half) (rangeI (i - R.half) (i + R.half + 1))
            let y ← (yz t).1.set chk "y" i (A * R.gain)
            .ok (y, z')) (((hB.and hP).and hlen).mono fun t ht' => ?_) ?_
          · beta_reduce at ht' ⊢
            rw [ht'.1.1, if_pos rfl, ht'.1.2]
            simp only [Bind.bind, Except.bind, ht'.2, hc, hf, if_true]
            cases lse cython (.fin β) (P t) <;> rfl
          · refine (ev_lse (β := β) hκ ⟨g', hg⟩).bind fun ab hab => ?_
            refine (ev_fill hb hr hκ hab hz chk _ hj [] (by simp)).bind fun z' hz' => ?_
            exact tail hz'.1 (by simpa using hz'.2)
        · refine Ev.congr (Y := fun t => do
            let A ← firSum cython chk (shifted R β x t) (yz t).2 (i - R.half) (rangeI (i - R.half) (i + R.half + 1))
            let y ← (yz t).1.set chk "y" i (A * R.gain)
            .ok (y, (yz t).2)) (((hB.and hP).and hlen).mono fun t ht' => ?_) (tail hz fun j hjm => ?_)
          · beta_reduce at ht' ⊢
            rw [ht'.1.1, if_pos rfl, ht'.1.2]
            simp only [Bind.bind, Except.bind, ht'.2, hc, hf, if_true, if_false]
          · obtain ⟨o, ho⟩ := hz.val j (hj j hjm).1 (hj j hjm).2
            cases o with
            | some v => exact ⟨v, ho⟩
            | none =>
              exfalso
              obtain ⟨t, ⟨ht1, ht2⟩, ht3⟩ := ((hP.and hlen).and ho).exists
              have hcv := collect_val ht1
              have : (P t).length < (rangeI (i - R.half) (i + R.half + 1)).length := by
                rw [hcv, List.length_map, List.length_filter_lt_length_iff_exists]
                refine ⟨j, hjm, ?_⟩
                dsimp only at ht3
                rw [ht3, hbad]
                simp [sval, PyFloat.ne]
              rw [length_rangeI, ht2] at this
              omega
      · refine Ev.congr (Y := fun t => .ok (yz t)) (((hB.and hP).and hlen).mono fun t ht' => ?_) (.ok ⟨hy, hz⟩)
        beta_reduce at ht' ⊢
        rw [ht'.1.1, if_pos rfl, ht'.1.2]
        simp only [Bind.bind, Except.bind, ht'.2, hc, Bool.false_eq_true, if_false]

theorem ev_firPass (hb : R.bad = .fin β) {r : Int → ℝ} (hr : RealRanges R r) {w : Nat → ℝ} {g m : ℝ} (ht : Taps' R w g m) {κ : ℝ} (hκ : κ ≠ 0)
    {sd : ℝ → Buf XR} (hs : PCBuf R.n sd) {yz : ℝ → Buf XR × Buf XR} (hy : PBuf β (m * κ) R.n fun t => (yz t).1)
    (hz : PBuf β κ R.n fun t => (yz t).2) (chk : Bool) :
    Ev (fun t => firPass cython chk (shifted R β x t) (sd t) (yz t))
      (fun W => (PBuf β (m * κ) R.n fun t => (W t).1) ∧ PBuf β (m * κ) R.n fun t => (W t).2) := by
  have hhalf : ∀ t, (shifted R β x t).half = R.half := fun _ => rfl
  have hn : ∀ t, (shifted R β x t).n = R.n := fun _ => rfl
  unfold firPass
  simp only [hhalf, hn]
  refine (Ev.foldlM (P := fun W : ℝ → Buf XR × Buf XR => (PBuf β (m * κ) R.n fun t => (W t).1) ∧ PBuf β κ R.n fun t => (W t).2)
    ⟨hy, hz⟩ fun i hi s hs' => ?_).bind fun W hW => .ok ⟨hW.1, hW.1⟩
  have := mem_rangeI.mp hi
  exact ev_firGate hb hr ht hκ hs hs'.1 hs'.2 chk this.1 this.2

/-- the factor by which a shift of the phases shifts the filtered phases -/
def gainOf (m : ℝ) : Nat → ℝ
  | 0 => 1
  | _ + 1 => m

theorem ev_firPasses (hb : R.bad = .fin β) {r : Int → ℝ} (hr : RealRanges R r) {w : Nat → ℝ} {g m : ℝ} (ht : Taps' R w g m)
    (hm : m ≠ 0) {sd : ℝ → Buf XR} (hs : PCBuf R.n sd) (chk : Bool) (k : Nat) (hk : k ≤ 1 ∨ m = 1)
    {yz : ℝ → Buf XR × Buf XR} (hy : PBuf β m R.n fun t => (yz t).1) (hz : PBuf β 1 R.n fun t => (yz t).2) :
    Ev (fun t => firPasses cython chk (shifted R β x t) (sd t) k (yz t)) (fun W => PBuf β (gainOf m k) R.n fun t => (W t).2) := by
  rcases hk with hk | rfl
  · match k, hk with
    | 0, _ => exact .ok hz
    | 1, _ =>
      unfold firPasses
      refine (ev_firPass hb hr ht one_ne_zero hs (by simpa using hy) hz chk).bind fun W hW => ?_
      unfold firPasses
      exact .ok (by simpa [gainOf] using hW.2)
  · have hg : ∀ k, gainOf 1 k = 1 := by intro k; cases k <;> rfl
    rw [hg]
    induction k generalizing yz with
    | zero => exact .ok hz
    | succ k ih =>
      unfold firPasses
      refine (ev_firPass hb hr ht one_ne_zero hs (by simpa using hy) hz chk).bind fun W hW => ?_
      exact ih (by simpa using hW.2) (by simpa using hW.1)

/-! ## KDP -/

theorem ev_kdpGate (hb : R.bad = .fin β) {r : Int → ℝ} (hr : RealRanges R r) {κ : ℝ} (hκ : κ ≠ 0)
    {z : ℝ → Buf XR} (hz : PBuf β κ R.n z) (chk : Bool) {M : ℝ → Int} (hM : PConst M) {i : Int} (h0 : 0 ≤ i) (h1 : i < R.n) :
    Ev (fun t => kdpGate cython chk (shifted R β x t) (z t) (M t) i) PConst := by
  obtain ⟨m0, hM⟩ := hM
  refine Ev.congr (Y := fun t => kdpGate cython chk (shifted R β x t) (z t) m0 i) (hM.mono fun t ht => by beta_reduce; rw [ht]) ?_
  have hn : ∀ t, (shifted R β x t).n = R.n := fun _ => rfl
  have hdz : ∀ t, (shifted R β x t).dz = R.dz := fun _ => rfl
  have hbad : ∀ t, (shifted R β x t).bad = .fin β := fun _ => hb
  have hnad : ∀ t d m, nadpOf (shifted R β x t) d m = nadpOf R d m := fun _ _ _ => rfl
  unfold kdpGate
  simp only [wx, XR.ff32]
  simp only [hn, hdz, hbad, hnad]
  refine (ev_rd_const R.dz chk _ i).bind fun D hD => ?_
  simp only [hD]
  split
  · refine Ev.bind (P := PPts κ) ?_ fun P hP => ?_
    · split
      · refine ev_kdpCollect hb hr hκ hz chk fun j hj => ?_
        have := mem_rangeI.mp hj
        have hw : (cython (α := XR)).winEnd = 0 := rfl
        omega
      · exact .ok ⟨[], Eventually.of_forall fun _ => rfl⟩
    · have hP' := hP
      obtain ⟨g, hg⟩ := hP'
      have hlen : ∀ᶠ t in cofinite, (P t).length = g.length := hg.mono fun t ht => by rw [ht]; simp
      by_cases hc : (PyFloat.ofNat g.length >. (0.8 : XR) * PyFloat.ofInt (nadpOf R (R.dz.mem i) m0)) = true
      · refine Ev.congr (Y := fun t => do
          let ab ← lse cython (.fin β) (P t)
          .ok ((0.5 : XR) * ab.1, nadpOf R (R.dz.mem i) m0)) (hlen.mono fun t ht => by beta_reduce; rw [ht, if_pos hc]) ?_
        refine (ev_lse hκ hP).bind fun ab hab => .ok ?_
        obtain ⟨a, b, hab⟩ := hab
        exact ⟨((0.5 : XR) * .fin a, nadpOf R (R.dz.mem i) m0), hab.mono fun t ht => by beta_reduce; rw [ht]⟩
      · exact Ev.congr (Y := fun _ => .ok (.fin β, nadpOf R (R.dz.mem i) m0)) (hlen.mono fun t ht => by beta_reduce; rw [ht, if_neg hc]) (.ok (pconst_of _))
  · exact .ok (pconst_of _)

theorem ev_kdpLoop (hb : R.bad = .fin β) {r : Int → ℝ} (hr : RealRanges R r) {κ : ℝ} (hκ : κ ≠ 0)
    {z : ℝ → Buf XR} (hz : PBuf β κ R.n z) (chk : Bool) (is : List Int) (hi : ∀ i ∈ is, 0 ≤ i ∧ i < R.n) {M : ℝ → Int} (hM : PConst M) :
    Ev (fun t => kdpLoop cython chk (shifted R β x t) (z t) is (M t)) PConst := by
  induction is generalizing M with
  | nil => exact .ok (pconst_of _)
  | cons i is ih =>
    unfold kdpLoop
    have hi' := hi i (by simp)
    refine (ev_kdpGate hb hr hκ hz chk hM hi'.1 hi'.2).bind fun P hP => ?_
    obtain ⟨p, hP⟩ := hP
    refine Ev.congr (Y := fun t => do
      let ks ← kdpLoop cython chk (shifted R β x t) (z t) is p.2
      .ok (p.1 :: ks)) (hP.mono fun t ht => by beta_reduce; rw [ht]) ?_
    refine (ih (fun j hj => hi j (by simp [hj])) (pconst_of p.2)).bind fun K hK => .ok ?_
    obtain ⟨k, hK⟩ := hK
    exact ⟨p.1 :: k, hK.mono fun t ht => by beta_reduce; rw [ht]⟩

/-- what a call returns, as a function of the shift -/
def POut (β κ : ℝ) (n : Nat) (V : ℝ → RayOut XR) : Prop :=
  PConst (fun t => (V t).kd) ∧ PConst (fun t => (V t).sd) ∧
    ∀ i : Nat, i < n → ∃ s : Option ℝ, ∀ᶠ t in cofinite, (V t).dp[i]? = some (sval β κ s t)

theorem ev_calc (hb : R.bad = .fin β) (hs : 1 ≤ R.stdGate) {r : Int → ℝ} (hr : RealRanges R r) {w : Nat → ℝ} {g m : ℝ} (ht : Taps' R w g m)
    (hm : m ≠ 0) (hnf : R.nf ≤ 1 ∨ m = 1) (chk : Bool) :
    Ev (fun t => calcKdpRayFir cython chk (shifted R β x t)) (POut β (gainOf m R.nf) R.n) := by
  have hn : ∀ t, (shifted R β x t).n = R.n := fun _ => rfl
  have hnf' : ∀ t, (shifted R β x t).nf = R.nf := fun _ => rfl
  have hnad : ∀ t, (shifted R β x t).nadp0 = R.nadp0 := fun _ => rfl
  have hbad : ∀ t, (shifted R β x t).bad = .fin β := fun _ => hb
  have hκ : gainOf m R.nf ≠ 0 := by cases R.nf <;> simp [gainOf, hm]
  unfold calcKdpRayFir
  simp only [hn, hnf', hnad, hbad]
  -- the phases
  refine Ev.bind (P := fun Z => PBuf β 1 R.n fun t => ofList R.n (Z t)) ?_ fun Z hZ => ?_
  · have h1 := ev_mapM (β := β) (κ := 1) (l := gates R.n) (f := fun t => rd chk "dp" (shifted R β x t).dp) fun j hj => by
      have := mem_gates.mp hj
      exact PBuf.dp.rd chk _ this.1 this.2
    rcases h1 with h1 | ⟨V, hV, s, hs'⟩
    · exact .inl h1
    · refine .inr ⟨V, hV, ⟨⟨R.n, Eventually.of_forall fun _ => rfl⟩, fun j j0 j1 => ?_⟩⟩
      obtain ⟨q, rfl⟩ : ∃ q : Nat, j = q := ⟨j.toNat, by omega⟩
      have hlen : s.length = R.n := by
        obtain ⟨t, h2, h3⟩ := (hV.and hs').exists
        have := (mapM_get h2).1
        rw [h3, gates_length] at this
        simpa using this
      refine ⟨s[q]'(by omega), hs'.mono fun t ht' => ?_⟩
      beta_reduce
      rw [ofList_get _ _ q (by rw [ht']; simp; omega)]
      simp [ht']
  · refine (ev_mapM_const fun j _ => ev_sdAt hb hs chk j).bind fun S hS => ?_
    obtain ⟨sd, hS⟩ := hS
    have hSB : PCBuf R.n fun t => ofList R.n (S t) :=
      ⟨⟨R.n, Eventually.of_forall fun _ => rfl⟩, fun j _ _ => ⟨(ofList R.n sd).mem j, hS.mono fun t ht' => by beta_reduce; rw [ht']⟩⟩
    have hY : PBuf β m R.n fun _ => ofList R.n (List.replicate R.n (.fin β)) := by
      refine ⟨⟨R.n, Eventually.of_forall fun _ => rfl⟩, fun j j0 j1 => ⟨none, Eventually.of_forall fun t => ?_⟩⟩
      obtain ⟨q, rfl⟩ : ∃ q : Nat, j = q := ⟨j.toNat, by omega⟩
      beta_reduce
      rw [ofList_get _ _ q (by simp; omega)]; simp [sval]
    refine (ev_firPasses hb hr ht hm hSB chk R.nf hnf (yz := fun t => (_, _)) hY hZ).bind fun W hW => ?_
    refine (ev_kdpLoop hb hr hκ hW chk (gates R.n) (fun i hi => mem_gates.mp hi) (pconst_of R.nadp0)).bind fun K hK => .ok ?_
    refine ⟨hK, ⟨sd, hS⟩, fun i hi => ?_⟩
    obtain ⟨s, hs'⟩ := hW.val i (by omega) (by omega)
    refine ⟨s, hs'.mono fun t ht' => ?_⟩
    beta_reduce at ht'
    rw [← ht']
    simp [gates, rangeI, hi]

end Csu.Kdp
