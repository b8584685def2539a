import Verif.Props.KdpGate
import Verif.Props.KdpFir
/-! Filtering a phase that is linear in range, with gaps, for any number of passes. -/
namespace Csu.Kdp
open Csu PyFloat KdpSpec

/-- a line in range: slope and intercept -/
structure Line where
  a : ℝ
  b : ℝ

/-- uniformly spaced ranges -/
structure Spacing where
  r0 : ℝ
  s : ℝ

/-- range of gate `j` -/
def Spacing.at (S : Spacing) (j : Int) : ℝ := S.r0 + S.s * j
/-- value of the line at gate `j` -/
def Line.at (L : Line) (S : Spacing) (j : Int) : ℝ := L.a * S.at j + L.b

/-- every gate of the ray is on the line or bad -/
def OnLine (R : Ray XR) (S : Spacing) (L : Line) (z : Buf XR) : Prop :=
  ∀ j : Int, 0 ≤ j → j < R.n → z.mem j = .fin (L.at S j) ∨ z.mem j = R.bad

/-- what the filter makes of a line, when the coefficients it reads have sum `m0` and first moment `m1` about the centre -/
def Line.step (L : Line) (S : Spacing) (m0 m1 : ℝ) : Line := ⟨m0 * L.a, m0 * L.b + L.a * S.s * m1⟩

/-- after `k` passes -/
def Line.steps (L : Line) (S : Spacing) (m0 m1 : ℝ) : Nat → Line
  | 0 => L
  | k + 1 => (L.step S m0 m1).steps S m0 m1 k

/-- The data common to every pass: ranges, bad value, coefficients as read. -/
structure FirData (D : Dialect XR) (R : Ray XR) (S : Spacing) (d : Nat → ℝ) (m0 m1 : ℝ) : Prop where
  even : R.order % 2 = 0
  gain : R.gain = .fin 1
  bad : ∃ β : ℝ, R.bad = .fin β
  step : S.s ≠ 0
  rng : ∀ j : Int, 0 ≤ j → j < R.n → R.rng.mem j = .fin (S.at j) ∧ D.skip R.bad (.fin (S.at j)) = false
  coef : ∀ k : Nat, k ≤ R.order → R.coef.mem ((k : Int) + D.coefOff) = .fin (d k)
  m0 : ∑ k ∈ Finset.range (R.order + 1), d k = m0
  m1 : ∑ k ∈ Finset.range (R.order + 1), d k * ((k : ℝ) - (R.order / 2 : Nat)) = m1

/-- `LSE` skips no gate of the line, except bad ones -/
def NoSkip (D : Dialect XR) (R : Ray XR) (S : Spacing) (L : Line) : Prop :=
  ∀ j : Int, 0 ≤ j → j < R.n → XR.fin (L.at S j) ≠ R.bad → D.skip R.bad (.fin (L.at S j)) = false

variable {D : Dialect XR} {R : Ray XR} {S : Spacing} {d : Nat → ℝ} {m0 m1 : ℝ}

theorem bad_eq (h : ∃ β : ℝ, R.bad = .fin β) : (R.bad ==. R.bad) = true := by
  obtain ⟨β, h⟩ := h; rw [h]; simp

theorem ne_bad_iff (h : ∃ β : ℝ, R.bad = .fin β) (x : XR) : (x !=. R.bad) = true ↔ x ≠ R.bad := by
  obtain ⟨β, h⟩ := h; rw [h]
  cases x with
  | nan => simp [PyFloat.ne]
  | ninf => simp only [PyFloat.ne]; exact ⟨fun _ h => (by cases h), fun _ => rfl⟩
  | pinf => simp only [PyFloat.ne]; exact ⟨fun _ h => (by cases h), fun _ => rfl⟩
  | fin y => simp [PyFloat.ne]

theorem eq_bad_iff (h : ∃ β : ℝ, R.bad = .fin β) (x : XR) : (x ==. R.bad) = true ↔ x = R.bad := by
  have := ne_bad_iff h x
  unfold PyFloat.ne at this
  cases hx : (x ==. R.bad)
  · rw [hx] at this; simp at this; simp [this]
  · rw [hx] at this; simp at this; simp [this]

/-- the fit over good gates of a line returns the line -/
theorem lse_line (h : FirData D R S d m0 m1) {L : Line} (hs : NoSkip D R S L) {z : Buf XR} (hz : OnLine R S L z)
    {js : List Int} (hj : ∀ j ∈ js, 0 ≤ j ∧ j < R.n) (hn : js.Nodup) {P : Int → Bool}
    (hP : ∀ j ∈ js, P j = true → (z.mem j !=. R.bad) = true) (hl : 2 ≤ (js.filter P).length) :
    lse D R.bad ((js.filter P).map (fun j => (R.rng.mem j, z.mem j))) = .ok (.fin L.a, .fin L.b) := by
  have hmem : ∀ j ∈ js.filter P, (0 ≤ j ∧ j < R.n) ∧ z.mem j = .fin (L.at S j) ∧ XR.fin (L.at S j) ≠ R.bad := by
    intro j hj'
    have h1 := List.mem_filter.mp hj'
    have h2 := hj j h1.1
    have h3 := (ne_bad_iff h.bad _).mp (hP j h1.1 h1.2)
    rcases hz j h2.1 h2.2 with h4 | h4
    · exact ⟨h2, h4, h4 ▸ h3⟩
    · exact absurd h4 h3
  set pts : List (ℝ × ℝ) := (js.filter P).map (fun j => (S.at j, L.at S j)) with hpts
  have e1 : (js.filter P).map (fun j => (R.rng.mem j, z.mem j)) = pts.map lift := by
    rw [hpts, List.map_map]
    apply List.map_congr_left
    intro j hj'
    have := hmem j hj'
    simp only [Function.comp, lift, this.2.1, (h.rng j this.1.1 this.1.2).1]
  have e2 : kept D R.bad pts = pts := by
    unfold kept
    rw [List.filter_eq_self]
    intro p hp
    obtain ⟨j, hj', rfl⟩ := List.mem_map.mp hp
    have := hmem j hj'
    simp [(h.rng j this.1.1 this.1.2).2, hs j this.1.1 this.1.2 this.2.2]
  have htwo : TwoAbscissae pts := by
    have hnd : (js.filter P).Nodup := hn.filter P
    obtain ⟨a, b, l, hab⟩ : ∃ a b l, js.filter P = a :: b :: l := by
      match hm : js.filter P, hl with
      | a :: b :: l, _ => exact ⟨a, b, l, rfl⟩
    rw [hab] at hnd
    have hne : a ≠ b := by
      have := List.nodup_cons.mp hnd
      intro hc; apply this.1; simp [hc]
    refine ⟨(S.at a, L.at S a), ?_, (S.at b, L.at S b), ?_, ?_⟩
    · rw [hpts, hab]; simp
    · rw [hpts, hab]; simp
    · intro hc
      have : S.s * (a : ℝ) = S.s * b := by simpa [Spacing.at] using hc
      exact hne (by exact_mod_cast mul_left_cancel₀ h.step this)
  have hsl := slope_of_line pts htwo L.a L.b (fun p hp => by
    obtain ⟨j, _, rfl⟩ := List.mem_map.mp hp; rfl)
  rw [e1, lse_val D R.bad pts (by rw [e2]; exact (detR_ne_zero_iff pts).mpr htwo), e2, hsl.1, hsl.2]

/-- filling the gaps with the line puts the whole window on the line -/
theorem fill_line (h : FirData D R S d m0 m1) {L : Line} {chk : Bool} {js : List Int} (hj : ∀ j ∈ js, 0 ≤ j ∧ j < R.n)
    {z z' : Buf XR} (hz : OnLine R S L z) (e : fill D chk R (.fin L.a, .fin L.b) js z = .ok z') :
    OnLine R S L z' ∧ ∀ j ∈ js, z'.mem j = .fin (L.at S j) := by
  unfold fill at e
  simp only [wx, XR.ff32] at e
  -- one step
  have hstep : ∀ (w w' : Buf XR) (k : Int), 0 ≤ k → k < R.n → OnLine R S L w → (do
      let v ← rd chk "z" w k
      if v ==. R.bad then do
        let r ← rd chk "rng" R.rng k
        w.set chk "z" k (XR.fin L.a * r + XR.fin L.b)
      else .ok w) = Except.ok w' → w'.mem k = .fin (L.at S k) ∧ ∀ j, j ≠ k → w'.mem j = w.mem j := by
    intro w w' k k0 k1 hw hr
    obtain ⟨v, hv, hr⟩ := bind_ok hr
    have hv := rd_val hv
    split at hr
    · obtain ⟨t, ht, hr⟩ := bind_ok hr
      have ht := rd_val ht
      have := set_val hr
      subst this
      refine ⟨?_, fun j hj => by simp [hj]⟩
      simp only [if_true]
      rw [ht, (h.rng k k0 k1).1]
      simp [Line.at]
    · rename_i hb
      cases hr
      refine ⟨?_, fun j _ => rfl⟩
      rcases hw k k0 k1 with h1 | h1
      · exact h1
      · exact absurd ((eq_bad_iff h.bad _).mpr (by rw [hv]; exact h1)) hb
  induction js generalizing z with
  | nil => cases e; exact ⟨hz, by simp⟩
  | cons k js ih =>
    rw [List.foldlM_cons] at e
    obtain ⟨w, hw, e2⟩ := bind_ok e
    have hk := hj k (by simp)
    have h1 := hstep z w k hk.1 hk.2 hz hw
    have hw' : OnLine R S L w := by
      intro j j0 j1
      by_cases hjk : j = k
      · subst hjk; exact .inl h1.1
      · rw [h1.2 j hjk]; exact hz j j0 j1
    have h2 := ih (fun j hj' => hj j (by simp [hj'])) hw' e2
    refine ⟨h2.1, fun j hj' => ?_⟩
    rcases List.mem_cons.mp hj' with rfl | hj'
    · -- preserved by the rest
      have : OnLine R S L z' ∧ z'.mem j = .fin (L.at S j) := by
        refine foldlM_inv (I := fun u : Buf XR => OnLine R S L u ∧ u.mem j = .fin (L.at S j)) ⟨hw', h1.1⟩
          (fun u i r hi hu hr => ?_) e2
        have hi' := hj i (by simp [hi])
        have h3 := hstep u r i hi'.1 hi'.2 hu.1 hr
        have hr' : ∀ t : Int, 0 ≤ t → t < R.n → r.mem t = .fin (L.at S t) ∨ r.mem t = R.bad := by
          intro t t0 t1
          by_cases hti : t = i
          · subst hti; exact .inl h3.1
          · rw [h3.2 t hti]; exact hu.1 t t0 t1
        refine ⟨hr', ?_⟩
        by_cases hji : j = i
        · subst hji; exact h3.1
        · rw [h3.2 j hji]; exact hu.2
      exact this.2
    · exact h2.2 j hj'

/-- the filter sum over a window on a line -/
theorem fold_line (h : FirData D R S d m0 m1) {L : Line} {z : Buf XR} {i : Int}
    (hz : ∀ j ∈ rangeI (i - R.half) (i + R.half + 1), z.mem j = .fin (L.at S j)) :
    (rangeI (i - R.half) (i + R.half + 1)).foldl (fun A j => A + R.coef.mem (j - (i - R.half) + D.coefOff) * z.mem j) 0.0 =
      .fin ((L.step S m0 m1).at S i) := by
  have hh : (R.half : Int) = ((R.order / 2 : Nat) : Int) := rfl
  have heven := h.even
  have hr : rangeI (i - R.half) (i + R.half + 1) = (List.range (R.order + 1)).map (fun (k : Nat) => i - R.half + Int.ofNat k) := by
    unfold rangeI
    rw [show ((i + R.half + 1) - (i - R.half) : Int).toNat = R.order + 1 by omega]
  rw [hr] at hz ⊢
  rw [List.foldl_map]
  have hfold : ∀ (l : List Nat) (s : XR), (∀ k ∈ l, k < R.order + 1) → l.foldl (fun A (k : Nat) =>
      A + R.coef.mem (i - R.half + Int.ofNat k - (i - R.half) + D.coefOff) * z.mem (i - R.half + Int.ofNat k)) s =
      l.foldl (fun (A : XR) (k : Nat) => A + .fin (d k) * .fin (L.at S (i - R.half + Int.ofNat k))) s := by
    intro l
    induction l with
    | nil => intro s _; rfl
    | cons k l ih =>
      intro s hs
      have hk := hs k (by simp)
      rw [List.foldl_cons, List.foldl_cons, ih _ fun j hj => hs j (by simp [hj]),
        hz _ (List.mem_map.mpr ⟨k, List.mem_range.mpr hk, rfl⟩),
        show i - R.half + Int.ofNat k - (i - R.half) + D.coefOff = (k : Int) + D.coefOff by
          simp only [Int.ofNat_eq_natCast]; omega, h.coef k (by omega)]
  rw [hfold _ _ fun k hk => List.mem_range.mp hk, fir_fin]
  congr 1
  have : ∀ k : Nat, d k * L.at S (i - R.half + Int.ofNat k) =
      d k * L.at S i + L.a * S.s * (d k * ((k : ℝ) - (R.order / 2 : Nat))) := by
    intro k
    rw [hh]
    generalize R.order / 2 = q
    simp only [Line.at, Spacing.at, Int.ofNat_eq_natCast]
    push_cast
    ring
  simp only [this]
  rw [Finset.sum_add_distrib, ← Finset.sum_mul, ← Finset.mul_sum, h.m0, h.m1]
  simp only [Line.at, Line.step]
  ring

theorem firSum_line (h : FirData D R S d m0 m1) {L : Line} {chk : Bool} {z : Buf XR} {i : Int} {A : XR}
    (hz : ∀ j ∈ rangeI (i - R.half) (i + R.half + 1), z.mem j = .fin (L.at S j))
    (e : firSum D chk R z (i - R.half) (rangeI (i - R.half) (i + R.half + 1)) = .ok A) :
    A = .fin ((L.step S m0 m1).at S i) := by
  rw [firSum_val e]
  simp only [wx]
  rw [fold_line h hz]

/-- what one filter step does on a line -/
theorem firGate_line (h : FirData D R S d m0 m1) {L : Line} (hs : NoSkip D R S L) {chk : Bool} {sd : Buf XR}
    {yz r : Buf XR × Buf XR} {i : Int} (h0 : R.half ≤ i) (h1 : i < (R.n : Int) - R.half)
    (hz : OnLine R S L yz.2) (e : firGate D chk R sd yz i = .ok r) :
    OnLine R S L r.2 ∧ (∀ j, j ≠ i → r.1.mem j = yz.1.mem j) ∧
      (r.1.mem i = .fin ((L.step S m0 m1).at S i) ∨ r.1.mem i = yz.1.mem i) := by
  rcases firGate_cases e with rfl | ⟨pts, z, A, g1, g2, hc, hm, hz', hA, rfl⟩
  · exact ⟨hz, fun _ _ => rfl, .inr rfl⟩
  · have heven := h.even
    have hh : (R.half : Int) = ((R.order / 2 : Nat) : Int) := rfl
    have hjs : ∀ j ∈ rangeI (i - R.half) (i + R.half + 1), 0 ≤ j ∧ j < R.n := by
      intro j hj; have := mem_rangeI.mp hj; omega
    have hcv := collect_val hc
    set P : Int → Bool := fun j => (sd.mem j <=. R.thsd.mem j) && (yz.2.mem j !=. R.bad) with hP
    have hPz : ∀ j ∈ rangeI (i - R.half) (i + R.half + 1), P j = true → (yz.2.mem j !=. R.bad) = true := by
      intro j _ hj; rw [hP] at hj; simp only [Bool.and_eq_true] at hj; exact hj.2
    have hlen : (rangeI (i - R.half) (i + R.half + 1)).length = R.order + 1 := by rw [length_rangeI]; omega
    have hwin : OnLine R S L z ∧ ∀ j ∈ rangeI (i - R.half) (i + R.half + 1), z.mem j = .fin (L.at S j) := by
      rcases hz' with ⟨hlt, ab, hab, hf⟩ | ⟨hge, rfl⟩
      · have hl2 : 2 ≤ ((rangeI (i - R.half) (i + R.half + 1)).filter P).length := by
          have hpl : pts.length = ((rangeI (i - R.half) (i + R.half + 1)).filter P).length := by rw [hcv]; simp
          rw [← hpl]
          simp only [XR.fofNat, XR.fsci, XR.fmul, XR.fgt, decide_eq_true_eq] at hm
          have ho : 2 ≤ R.order := by
            by_contra hc'
            have ho : R.order = 0 := by omega
            have : pts.length = 0 := by omega
            rw [this, ho] at hm; norm_num at hm
          have ho' : (2 : ℝ) ≤ R.order := by exact_mod_cast ho
          by_contra hc'
          have : pts.length ≤ 1 := by omega
          have : (pts.length : ℝ) ≤ 1 := by exact_mod_cast this
          norm_num at hm; linarith
        rw [hcv, lse_line h hs hz hjs (nodup_rangeI _ _) hPz hl2] at hab
        cases hab
        exact fill_line h hjs hz hf
      · refine ⟨hz, fun j hj => ?_⟩
        have hall : (rangeI (i - R.half) (i + R.half + 1)).filter P = rangeI (i - R.half) (i + R.half + 1) := by
          apply List.filter_eq_self.mpr
          intro a ha
          by_contra hPa
          have hlt : ((rangeI (i - R.half) (i + R.half + 1)).filter P).length < (rangeI (i - R.half) (i + R.half + 1)).length := by
            rw [List.length_filter_lt_length_iff_exists]; exact ⟨a, ha, hPa⟩
          rw [hcv, List.length_map] at hge
          omega
        have hPj : P j = true := (List.mem_filter.mp (hall ▸ hj)).2
        rcases hz j (hjs j hj).1 (hjs j hj).2 with h2 | h2
        · exact h2
        · exact absurd h2 ((ne_bad_iff h.bad _).mp (hPz j hj hPj))
    refine ⟨hwin.1, fun j hj => by simp [hj], .inl ?_⟩
    simp only [if_true]
    rw [firSum_line h hwin.2 hA, h.gain]; simp

/-- one pass: the output is on the stepped line or bad -/
theorem firPass_line (h : FirData D R S d m0 m1) {L : Line} (hs : NoSkip D R S L) {chk : Bool} {sd : Buf XR}
    {yz r : Buf XR × Buf XR} (hz : OnLine R S L yz.2)
    (e : firPass D chk R sd yz = .ok r) {L' : Line} (hL' : L' = L.step S m0 m1) :
    r.2 = r.1 ∧ ∀ j : Int, 0 ≤ j → j < R.n → r.1.mem j = .fin (L'.at S j) ∨ r.1.mem j = yz.1.mem j := by
  subst hL'
  unfold firPass at e
  obtain ⟨w, hw, e⟩ := bind_ok e
  cases e
  refine ⟨rfl, ?_⟩
  have := foldlM_inv (I := fun u : Buf XR × Buf XR => OnLine R S L u.2 ∧ ∀ j : Int, 0 ≤ j → j < R.n →
    u.1.mem j = .fin ((L.step S m0 m1).at S j) ∨ u.1.mem j = yz.1.mem j) ⟨hz, fun j _ _ => .inr rfl⟩
    (fun u i r hi hu hr => ?_) hw
  · exact this.2
  · have hi := mem_rangeI.mp hi
    have hg := firGate_line h hs hi.1 hi.2 hu.1 hr
    refine ⟨hg.1, fun j j0 j1 => ?_⟩
    by_cases hji : j = i
    · subst hji
      rcases hg.2.2 with h3 | h3
      · exact .inl h3
      · rw [h3]; exact hu.2 j j0 j1
    · rw [hg.2.1 j hji]; exact hu.2 j j0 j1

end Csu.Kdp
