import Verif.Lemmas.KdpAffine
import Verif.Props.KdpUnits
/-!
# C126: what the filtered phase of a gate depends on

Gaps are filled in place, in the array the following gates read.
-/
namespace Csu.Kdp
open Csu PyFloat
variable {α : Type} [PyFloat α]

/-- two arrays of the same length that agree up to cell `B` -/
structure AgreeTo (B : Int) (a b : Buf α) : Prop where
  len : b.len = a.len
  val : ∀ j : Int, 0 ≤ j → j ≤ B → b.mem j = a.mem j

theorem AgreeTo.mono {B C : Int} {a b : Buf α} (h : AgreeTo B a b) (hc : C ≤ B) : AgreeTo C a b :=
  ⟨h.len, fun j h0 h1 => h.val j h0 (by omega)⟩

theorem AgreeTo.rd {B : Int} {a b : Buf α} (h : AgreeTo B a b) (chk : Bool) (name : String) {j : Int} (h0 : 0 ≤ j) (h1 : j ≤ B) :
    rd chk name b j = rd chk name a j := by
  unfold Kdp.rd Buf.has
  rw [h.len, h.val j h0 h1]

/-- Two rays with the same parameters, number of gates and filter that agree up to gate `B` in range and threshold, and up to gate `P` in phase;
the reflectivities are arbitrary. -/
structure SamePrefix (B P : Int) (R R' : Ray α) : Prop where
  n : R'.n = R.n
  nf : R'.nf = R.nf
  bad : R'.bad = R.bad
  order : R'.order = R.order
  gain : R'.gain = R.gain
  coef : R'.coef = R.coef
  stdGate : R'.stdGate = R.stdGate
  dp : AgreeTo P R.dp R'.dp
  rng : AgreeTo B R.rng R'.rng
  thsd : AgreeTo B R.thsd R'.thsd

variable {R R' : Ray α} {B P : Int}

theorem erel_rd {a b : Buf α} (h : AgreeTo B a b) (chk : Bool) (name : String) {j : Int} (h0 : 0 ≤ j) (h1 : j ≤ B) :
    ERel Eq (rd chk name a j) (rd chk name b j) := by
  rw [h.rd chk name h0 h1]
  cases rd chk name a j with
  | error e => exact .err e
  | ok v => exact .ok rfl

theorem erel_set {a b : Buf α} (h : AgreeTo B a b) (chk : Bool) (name : String) (j : Int) (v : α) :
    ERel (AgreeTo B) (a.set chk name j v) (b.set chk name j v) := by
  unfold Buf.set Buf.has
  rw [h.len]
  split
  · exact .err _
  · refine .ok ⟨rfl, fun k k0 k1 => ?_⟩
    dsimp only
    rw [h.val k k0 k1]

theorem erel_good (h : SamePrefix B P R R') {sd sd' z z' : Buf α} (hs : AgreeTo B sd sd') (hz : AgreeTo B z z') (chk : Bool) {j : Int}
    (h0 : 0 ≤ j) (h1 : j ≤ B) : good chk R' sd' z' j = good chk R sd z j := by
  unfold good
  rw [hs.rd chk _ h0 h1, h.thsd.rd chk _ h0 h1, hz.rd chk _ h0 h1, h.bad]

theorem foldlM_congr {β σ : Type} {f g : σ → β → Except PyErr σ} {l : List β} (s : σ) (h : ∀ x ∈ l, ∀ s, f s x = g s x) :
    l.foldlM f s = l.foldlM g s := by
  induction l generalizing s with
  | nil => rfl
  | cons x l ih =>
    rw [List.foldlM_cons, List.foldlM_cons, h x (by simp)]
    congr 1
    funext s'
    exact ih s' fun y hy => h y (by simp [hy])

theorem erel_collect (h : SamePrefix B P R R') {sd sd' z z' : Buf α} (hs : AgreeTo B sd sd') (hz : AgreeTo B z z') (chk : Bool)
    {js : List Int} (hj : ∀ j ∈ js, 0 ≤ j ∧ j ≤ B) : collect chk R' sd' z' js = collect chk R sd z js := by
  unfold collect
  refine foldlM_congr _ fun j hjm acc => ?_
  have := hj j hjm
  rw [erel_good h hs hz chk this.1 this.2, hz.rd chk _ this.1 this.2, h.rng.rd chk _ this.1 this.2]

theorem erel_fill (h : SamePrefix B P R R') (ab : α × α) {z z' : Buf α} (hz : AgreeTo B z z') (chk : Bool)
    {js : List Int} (hj : ∀ j ∈ js, 0 ≤ j ∧ j ≤ B) : ERel (AgreeTo B) (fill D chk R ab js z) (fill D chk R' ab js z') := by
  unfold fill
  refine ERel.foldlM hz fun j hjm z z' hz => ?_
  have hj := hj j hjm
  refine (erel_rd hz chk _ hj.1 hj.2).bind fun v w hvw => ?_
  subst hvw
  rw [h.bad]
  split
  · refine (erel_rd h.rng chk _ hj.1 hj.2).bind fun r r' hr => ?_
    subst hr
    exact erel_set hz chk _ j _
  · exact .ok hz

theorem erel_firSum (D : Dialect α) (h : SamePrefix B P R R') {z z' : Buf α} (hz : AgreeTo B z z') (chk : Bool) (lo : Int)
    {js : List Int} (hj : ∀ j ∈ js, 0 ≤ j ∧ j ≤ B) : firSum D chk R' z' lo js = firSum D chk R z lo js := by
  unfold firSum
  refine foldlM_congr _ fun j hjm acc => ?_
  have := hj j hjm
  rw [h.coef, hz.rd chk _ this.1 this.2]

/-- both phase arrays agree up to `B` -/
def AgreeYZ (B : Int) (p q : Buf α × Buf α) : Prop := AgreeTo B p.1 q.1 ∧ AgreeTo B p.2 q.2

theorem erel_firGate (D : Dialect α) (h : SamePrefix B P R R') {sd sd' : Buf α} (hs : AgreeTo B sd sd') {yz yz' : Buf α × Buf α}
    (hz : AgreeYZ B yz yz') (chk : Bool) {i : Int} (h0 : R.half ≤ i) (h1 : i + R.half ≤ B) :
    ERel (AgreeYZ B) (firGate D chk R sd yz i) (firGate D chk R' sd' yz' i) := by
  have hhalf : R'.half = R.half := by unfold Ray.half; rw [h.order]
  have hj : ∀ j ∈ rangeI (i - R.half) (i + R.half + 1), 0 ≤ j ∧ j ≤ B := by
    intro j hj; have := mem_rangeI.mp hj; omega
  unfold firGate
  dsimp only
  rw [hhalf, h.order, h.gain, h.bad, erel_good h hs hz.2 chk (by omega) (by omega), erel_collect h hs hz.2 chk hj]
  refine ERel.bind (P := Eq) ?_ fun b b' hb => ?_
  · cases good chk R sd yz.2 i with
    | error e => exact .err e
    | ok v => exact .ok rfl
  subst hb
  split
  · refine ERel.bind (P := Eq) ?_ fun ps qs hpq => ?_
    · cases collect chk R sd yz.2 (rangeI (i - R.half) (i + R.half + 1)) with
      | error e => exact .err e
      | ok v => exact .ok rfl
    subst hpq
    split
    · refine ERel.bind (P := AgreeTo B) ?_ fun z z' hz' => ?_
      · split
        · cases lse D R.bad ps with
          | error e => exact .err e
          | ok ab => exact erel_fill h ab hz.2 chk hj
        · exact .ok hz.2
      · rw [erel_firSum D h hz' chk _ hj]
        refine ERel.bind (P := Eq) ?_ fun A A' hA => ?_
        · cases firSum D chk R z (i - R.half) (rangeI (i - R.half) (i + R.half + 1)) with
          | error e => exact .err e
          | ok v => exact .ok rfl
        subst hA
        exact (erel_set hz.1 chk _ i _).bind fun y y' hy => .ok ⟨hy, hz'⟩
    · exact .ok hz
  · exact .ok hz

/-- what a pass that returns left at a gate: decided once the gate has been visited -/
theorem agree_firPass (D : Dialect α) (h : SamePrefix B P R R') {sd sd' : Buf α} (hs : AgreeTo B sd sd') {yz yz' r r' : Buf α × Buf α}
    (hz : AgreeYZ B yz yz') {chk : Bool} (e : firPass D chk R sd yz = .ok r) (e' : firPass D chk R' sd' yz' = .ok r') :
    AgreeYZ (B - R.half) r r' := by
  have hhalf : R'.half = R.half := by unfold Ray.half; rw [h.order]
  unfold firPass at e e'
  obtain ⟨w, hw, e⟩ := bind_ok e
  obtain ⟨w', hw', e'⟩ := bind_ok e'
  cases e
  cases e'
  rw [hhalf, h.n] at hw'
  suffices hk : AgreeTo (B - R.half) w.1 w'.1 from ⟨hk, hk⟩
  -- the gates whose window ends at or before B come first
  set c : Int := max R.half (min ((R.n : Int) - R.half) (B - R.half + 1)) with hc
  by_cases hcc : c ≤ (R.n : Int) - R.half
  · rw [rangeI_append _ c _ (by omega) hcc] at hw hw'
    obtain ⟨t, ht, hw⟩ := foldlM_append_ok hw
    obtain ⟨t', ht', hw'⟩ := foldlM_append_ok hw'
    have hrel := ERel.foldlM (P := AgreeYZ B) (f := firGate D chk R sd) (g := firGate D chk R' sd') (l := rangeI R.half c) hz
      fun i hi s s' hss => by
        have := mem_rangeI.mp hi
        exact erel_firGate D h hs hss chk this.1 (by omega)
    rw [ht, ht'] at hrel
    cases hrel with
    | ok hrel =>
      have hkeep : ∀ {S : Ray α} {sd : Buf α} {u v : Buf α × Buf α}, (rangeI c ((R.n : Int) - R.half)).foldlM (firGate D chk S sd) u = .ok v →
          v.1.len = u.1.len ∧ ∀ j < c, v.1.mem j = u.1.mem j := by
        intro S sd u v hv
        refine foldlM_inv (I := fun s : Buf α × Buf α => s.1.len = u.1.len ∧ ∀ j < c, s.1.mem j = u.1.mem j) ⟨rfl, fun _ _ => rfl⟩
          (fun s k r hk hs hr => ⟨?_, fun j hj => ?_⟩) hv
        · rw [← hs.1]
          rcases firGate_cases hr with rfl | ⟨_, _, _, -, -, -, -, -, -, rfl⟩ <;> rfl
        · have := mem_rangeI.mp hk
          rw [firGate_y hr (.inl (by omega)), hs.2 j hj]
      have k1 := hkeep hw
      have k2 := hkeep hw'
      refine ⟨by rw [k1.1, k2.1]; exact hrel.1.len, fun j j0 j1 => ?_⟩
      by_cases hjc : j < c
      · rw [k1.2 j hjc, k2.2 j hjc]
        exact hrel.1.val j j0 (by omega)
      · -- beyond the last gate the pass visits
        have hall : ∀ {S : Ray α} {sd : Buf α} {u v : Buf α × Buf α}, (rangeI c ((R.n : Int) - R.half)).foldlM (firGate D chk S sd) u = .ok v →
            ∀ k ≥ (R.n : Int) - R.half, v.1.mem k = u.1.mem k := by
          intro S sd u v hv k hk
          refine foldlM_inv (I := fun s : Buf α × Buf α => s.1.mem k = u.1.mem k) rfl (fun s i r hi hs hr => ?_) hv
          have := mem_rangeI.mp hi
          rw [firGate_y hr (.inl (by omega)), hs]
        rw [hall hw j (by omega), hall hw' j (by omega)]
        exact hrel.1.val j j0 (by omega)
  · -- no gate is visited
    have hnil : rangeI (R.half : Int) ((R.n : Int) - R.half) = [] := by
      unfold rangeI
      rw [show (((R.n : Int) - R.half) - R.half).toNat = 0 by omega]; rfl
    rw [hnil] at hw hw'
    cases hw
    cases hw'
    exact hz.1.mono (by omega)

theorem agree_firPasses (D : Dialect α) {chk : Bool} (k : Nat) (h : SamePrefix B P R R') {sd sd' : Buf α} (hs : AgreeTo B sd sd')
    {yz yz' r r' : Buf α × Buf α} (hz : AgreeYZ B yz yz') (e : firPasses D chk R sd k yz = .ok r)
    (e' : firPasses D chk R' sd' k yz' = .ok r') : AgreeYZ (B - k * R.half) r r' := by
  induction k generalizing B yz yz' with
  | zero => cases e; cases e'; simpa using hz
  | succ k ih =>
    unfold firPasses at e e'
    obtain ⟨w, hw, e⟩ := bind_ok e
    obtain ⟨w', hw', e'⟩ := bind_ok e'
    have h1 := agree_firPass D h hs hz hw hw'
    have hB : B - R.half ≤ B := by omega
    have := ih (B := B - R.half) ⟨h.n, h.nf, h.bad, h.order, h.gain, h.coef, h.stdGate, h.dp, h.rng.mono hB, h.thsd.mono hB⟩ (hs.mono hB) h1 e e'
    rw [show B - ((k + 1 : Nat) : Int) * R.half = B - R.half - k * R.half by push_cast; ring]
    exact this

theorem sdAt_agree (D : Dialect α) (h : SamePrefix B P R R') (chk : Bool) {i : Int} (hP : i + max R.halfStd 0 ≤ P) :
    sdAt D chk R' i = sdAt D chk R i := by
  have hh : R'.halfStd = R.halfStd := by unfold Ray.halfStd; rw [h.stdGate]
  unfold sdAt
  rw [hh, h.n, h.bad]
  split
  · rename_i hw
    have : (rangeI (i - R.halfStd) (i + R.halfStd + 1)).mapM (rd chk "dp" R'.dp) = (rangeI (i - R.halfStd) (i + R.halfStd + 1)).mapM (rd chk "dp" R.dp) := by
      have key : ∀ l : List Int, (∀ j ∈ l, 0 ≤ j ∧ j ≤ P) → l.mapM (rd chk "dp" R'.dp) = l.mapM (rd chk "dp" R.dp) := by
        intro l
        induction l with
        | nil => intro _; rfl
        | cons j l ih =>
          intro hl
          have hj := hl j (by simp)
          rw [List.mapM_cons, List.mapM_cons, h.dp.rd chk _ hj.1 hj.2, ih fun k hk => hl k (by simp [hk])]
      refine key _ fun j hj => ?_
      have := mem_rangeI.mp hj
      omega
    rw [this]
  · rfl

/-- **C126**, what holds for any gaps and any number of passes, in both kernels: the filtered phase and the standard deviation of gate `i` are determined
by the gates up to `i + nf * (order / 2)` (phases `(std_gate - 1) / 2` gates further), whatever the rest of the ray holds. -/
theorem C126_prefix_partial (D : Dialect α) (chk : Bool) (R R' : Ray α) (i : Nat) (hi : i < R.n)
    (h : SamePrefix (i + R.nf * (R.order / 2 : Nat)) (i + R.nf * (R.order / 2 : Nat) + max ((R.stdGate - 1) / 2) 0) R R')
    (out out' : RayOut α) (e : calcKdpRayFir D chk R = .ok out) (e' : calcKdpRayFir D chk R' = .ok out') :
    out'.dp[i]? = out.dp[i]? ∧ out'.sd[i]? = out.sd[i]? := by
  set B : Int := i + R.nf * (R.order / 2 : Nat) with hB
  obtain ⟨yz, r⟩ := calc_run e
  obtain ⟨yz', r'⟩ := calc_run e'
  have hhs : R.halfStd = (R.stdGate - 1) / 2 := rfl
  have hn := h.n
  have l1 := r.dpLen
  have l2 := r'.dpLen
  have l3 := r.sdLen
  have l4 := r'.sdLen
  have hsd : ∀ j : Nat, j < R.n → (j : Int) ≤ B → out'.sd.getD j PyFloat.nan = out.sd.getD j PyFloat.nan := by
    intro j hj hjB
    have s1 := r.sd j (by omega)
    have s2 := r'.sd j (by omega)
    rw [sdAt_agree D h chk (by rw [hhs]; omega), s1] at s2
    have := Except.ok.inj s2
    rw [List.getD_eq_getElem?_getD, List.getD_eq_getElem?_getD, List.getElem?_eq_getElem (by omega), List.getElem?_eq_getElem (by omega)]
    simp [this]
  have hnonneg : 0 ≤ (R.nf : Int) * (R.order / 2 : Nat) := by positivity
  refine ⟨?_, ?_⟩
  · have hs : AgreeTo B (ofList R.n out.sd) (ofList R'.n out'.sd) := by
      refine ⟨hn, fun j j0 j1 => ?_⟩
      unfold ofList
      simp only [j0, if_true]
      obtain ⟨q, rfl⟩ : ∃ q : Nat, j = q := ⟨j.toNat, by omega⟩
      simp only [Int.toNat_natCast]
      by_cases hq : q < R.n
      · exact hsd q hq j1
      · rw [List.getD_eq_getElem?_getD, List.getD_eq_getElem?_getD, List.getElem?_eq_none (by omega), List.getElem?_eq_none (by omega)]
    have hz : AgreeYZ B (ofList R.n (List.replicate R.n R.bad), ofList R.n ((gates R.n).map R.dp.mem))
        (ofList R'.n (List.replicate R'.n R'.bad), ofList R'.n ((gates R'.n).map R'.dp.mem)) := by
      rw [hn, h.bad]
      refine ⟨⟨rfl, fun _ _ _ => rfl⟩, ⟨rfl, fun j j0 j1 => ?_⟩⟩
      by_cases hj : j < R.n
      · rw [ofList_map_gates _ _ j0 hj, ofList_map_gates _ _ j0 hj]
        exact h.dp.val j j0 (by omega)
      · unfold ofList
        simp only [j0, if_true]
        rw [List.getD_eq_getElem?_getD, List.getD_eq_getElem?_getD, List.getElem?_eq_none (by simp [gates_length]; omega),
          List.getElem?_eq_none (by simp [gates_length]; omega)]
    have hp' := r'.passes
    rw [h.nf] at hp'
    have := (agree_firPasses D R.nf h hs hz r.passes hp').2.val i (by omega) (by
      show (i : Int) ≤ B - R.nf * ((R.order / 2 : Nat) : Int)
      omega)
    rw [List.getElem?_eq_getElem (by omega : i < out.dp.length), List.getElem?_eq_getElem (by omega : i < out'.dp.length), r.dp i (by omega),
      r'.dp i (by omega), this]
  · have := hsd i hi (by omega)
    rw [List.getD_eq_getElem?_getD, List.getD_eq_getElem?_getD, List.getElem?_eq_getElem (by omega), List.getElem?_eq_getElem (by omega)] at this
    simp only [Option.getD_some] at this
    rw [List.getElem?_eq_getElem (by omega), List.getElem?_eq_getElem (by omega), this]

/-- **C126**, one pass, at a gate whose whole window passes quality control: only that window matters, whatever was filled elsewhere. -/
theorem C126_clean_window_partial (D : Dialect α) (chk : Bool) (R R' : Ray α) (hnf : R.nf = 1) (hnf' : R'.nf = 1) (hn : R'.n = R.n)
    (hord : R'.order = R.order) (hgain : R'.gain = R.gain) (hcoef : R'.coef = R.coef)
    (he : R.order % 2 = 0) (hlt : (D.w (PyFloat.ofNat (R.order + 1)) >. D.w (D.w (0.8 : α) * D.w (PyFloat.ofNat R.order))) = true)
    (out out' : RayOut α) (e : calcKdpRayFir D chk R = .ok out) (e' : calcKdpRayFir D chk R' = .ok out')
    (i : Nat) (h0 : R.order / 2 ≤ i) (h1 : i + R.order / 2 < R.n)
    (hdp : ∀ j : Nat, i - R.order / 2 ≤ j → j ≤ i + R.order / 2 → R'.dp.mem j = R.dp.mem j)
    (hg : ∀ j : Nat, i - R.order / 2 ≤ j → j ≤ i + R.order / 2 →
      (out.sd.getD j PyFloat.nan <=. R.thsd.mem j) = true ∧ (R.dp.mem j !=. R.bad) = true)
    (hg' : ∀ j : Nat, i - R.order / 2 ≤ j → j ≤ i + R.order / 2 →
      (out'.sd.getD j PyFloat.nan <=. R'.thsd.mem j) = true ∧ (R'.dp.mem j !=. R'.bad) = true) :
    out'.dp[i]? = out.dp[i]? := by
  have key : ∀ (S : Ray α) (o : RayOut α), S.nf = 1 → S.n = R.n → S.order = R.order → calcKdpRayFir D chk S = .ok o →
      (∀ j : Nat, i - R.order / 2 ≤ j → j ≤ i + R.order / 2 →
        (o.sd.getD j PyFloat.nan <=. S.thsd.mem j) = true ∧ (S.dp.mem j !=. S.bad) = true) →
      o.dp[i]? = some (f32 ((rangeI (i - (R.order / 2 : Nat)) (i + (R.order / 2 : Nat) + 1)).foldl
        (fun A j => D.w (A + D.w (S.coef.mem (j - (i - (R.order / 2 : Nat)) + D.coefOff) * S.dp.mem j))) 0.0 * S.gain)) := by
    intro S o hS hSn hSo eS hgS
    obtain ⟨yz, r⟩ := calc_run eS
    have hp := r.passes
    rw [hS] at hp
    unfold firPasses at hp
    obtain ⟨w, hw, hp⟩ := bind_ok hp
    cases hp
    have hhalf : (S.half : Int) = ((R.order / 2 : Nat) : Int) := by unfold Ray.half; rw [hSo]
    have hz0 : ∀ j : Int, 0 ≤ j → j < S.n → (ofList S.n ((gates S.n).map S.dp.mem)).mem j = S.dp.mem j := fun j j0 j1 => ofList_map_gates _ _ j0 j1
    have hgood := firPass_good hw (i := i) (by rw [hhalf]; omega) (by rw [hhalf]; omega) (by rw [hSo]; exact he) (by rw [hSo]; exact hlt) (fun j j0 j1 => by
      rw [hhalf] at j0 j1
      obtain ⟨q, rfl⟩ : ∃ q : Nat, j = q := ⟨j.toNat, by omega⟩
      have := hgS q (by omega) (by omega)
      rw [hz0 q (by omega) (by omega)]
      refine ⟨?_, this.2⟩
      have hq : (ofList S.n o.sd).mem (q : Int) = o.sd.getD q PyFloat.nan := by simp [ofList]
      rw [hq]; exact this.1)
    have l1 := r.dpLen
    rw [List.getElem?_eq_getElem (by omega : i < o.dp.length), r.dp i (by omega), hgood, hhalf]
    congr 3
    have hcg : ∀ (js : List Int) (s : α), (∀ j ∈ js, 0 ≤ j ∧ j < S.n) →
        js.foldl (fun A j => D.w (A + D.w (S.coef.mem (j - (i - (R.order / 2 : Nat)) + D.coefOff) * (ofList S.n ((gates S.n).map S.dp.mem)).mem j))) s =
        js.foldl (fun A j => D.w (A + D.w (S.coef.mem (j - (i - (R.order / 2 : Nat)) + D.coefOff) * S.dp.mem j))) s := by
      intro js
      induction js with
      | nil => intro s _; rfl
      | cons j js ih =>
        intro s hs
        have := hs j (by simp)
        rw [List.foldl_cons, List.foldl_cons, hz0 j this.1 this.2, ih _ fun k hk => hs k (by simp [hk])]
    refine hcg _ _ fun j hj => ?_
    have := mem_rangeI.mp hj
    omega
  rw [key R out hnf rfl rfl e hg, key R' out' hnf' hn hord e' hg', hgain, hcoef]
  congr 3
  have hcg : ∀ (js : List Int) (s : α), (∀ j ∈ js, R'.dp.mem j = R.dp.mem j) →
      js.foldl (fun A j => D.w (A + D.w (R.coef.mem (j - (i - (R.order / 2 : Nat)) + D.coefOff) * R'.dp.mem j))) s =
      js.foldl (fun A j => D.w (A + D.w (R.coef.mem (j - (i - (R.order / 2 : Nat)) + D.coefOff) * R.dp.mem j))) s := by
    intro js
    induction js with
    | nil => intro s _; rfl
    | cons j js ih =>
      intro s hs
      rw [List.foldl_cons, List.foldl_cons, hs j (by simp), ih _ fun k hk => hs k (by simp [hk])]
  refine hcg _ _ fun j hj => ?_
  have := mem_rangeI.mp hj
  obtain ⟨q, rfl⟩ : ∃ q : Nat, j = q := ⟨j.toNat, by omega⟩
  exact hdp q (by omega) (by omega)

/-! ## The full statement -/

/-- C126 in full: with one pass, the filtered phase of gate `i` depends only on the gates of its own filter window (the standard deviations being
the same): changing the phase of a gate outside the window does not change it. -/
def C126Full (D : Dialect QF) : Prop := ∀ (R : Ray QF) (i k : Nat) (v : QF) (a b : RayOut QF), R.nf = 1 → k + R.order / 2 < i →
  calcKdpRayFir D true R = .ok a → calcKdpRayFir D true { R with dp := ⟨R.dp.len, fun j => if j = k then v else R.dp.mem j⟩ } = .ok b →
  a.sd = b.sd → a.dp[i]? = b.dp[i]?

/-- phase 0 except for a gap at gate 4; all gates pass quality control -/
def gapRay (v : QF) : Ray QF := { offRay 1 (.q (1 / 5)) (fun j => if j = 4 then .q (-5) else if j = 0 then v else 0) with coef := ⟨6, fun _ => 1⟩ }

theorem local_false (D : Dialect QF) (h1 : (calcKdpRayFir D true (gapRay 0)).isOk = true)
    (h2 : (calcKdpRayFir D true { gapRay 0 with dp := ⟨(gapRay 0).dp.len, fun j => if j = (0 : Nat) then 8 else (gapRay 0).dp.mem j⟩ }).isOk = true)
    (h3 : (calcKdpRayFir D true (gapRay 0)).toOption.map (·.sd) =
      (calcKdpRayFir D true { gapRay 0 with dp := ⟨(gapRay 0).dp.len, fun j => if j = (0 : Nat) then 8 else (gapRay 0).dp.mem j⟩ }).toOption.map (·.sd))
    (h4 : (calcKdpRayFir D true (gapRay 0)).toOption.map (fun o => o.dp[5]?) ≠
      (calcKdpRayFir D true { gapRay 0 with dp := ⟨(gapRay 0).dp.len, fun j => if j = (0 : Nat) then 8 else (gapRay 0).dp.mem j⟩ }).toOption.map (fun o => o.dp[5]?)) :
    ¬ C126Full D := by
  intro h
  have hh := h (gapRay 0) 5 0 8
  revert h1 h2 h3 h4 hh
  generalize calcKdpRayFir D true (gapRay 0) = X
  generalize calcKdpRayFir D true { gapRay 0 with dp := ⟨(gapRay 0).dp.len, fun j => if j = (0 : Nat) then 8 else (gapRay 0).dp.mem j⟩ } = Y
  intro h1 h2 h3 h4 hh
  cases X with
  | error e => cases h1
  | ok a =>
    cases Y with
    | error e => cases h2
    | ok b => exact h4 (congrArg some (hh a b rfl (by decide) rfl rfl (Option.some.inj h3)))

/-- Gate 4 is missing.  The first gate whose window reaches it, gate 2, fills it with the line through gates 0-3; gate 5, whose window is 3-7, then uses that
value, and so depends on the phase of gate 0. -/
theorem C126_full_false : ¬ C126Full cython := local_false _ (by decide +kernel) (by decide +kernel) (by decide +kernel) (by decide +kernel)

/-- the same in the Fortran kernel -/
theorem C126_fortran_full_false : ¬ C126Full fortran := local_false _ (by decide +kernel) (by decide +kernel) (by decide +kernel) (by decide +kernel)

/-! ## Non-vacuity -/

/-- a ray with a gap at gate 4, in which the phases of the last three gates are `v` -/
def tailRay (v : QF) : Ray QF :=
  { offRay 1 (.q (1 / 5)) (fun j => if j = 4 then .q (-5) else if 6 ≤ j then v else .q j) with stdGate := 1 }

/-- two rays that differ beyond gate 5 agree at gate 3, whose window has the gap at gate 4 in it, and both calls return -/
example : ∃ a b, calcKdpRayFir cython true (tailRay 6) = .ok a ∧ calcKdpRayFir cython true (tailRay 9) = .ok b ∧ b.dp[3]? = a.dp[3]? := by
  have h1 : (calcKdpRayFir cython true (tailRay 6)).isOk = true := by decide +kernel
  have h2 : (calcKdpRayFir cython true (tailRay 9)).isOk = true := by decide +kernel
  obtain ⟨a, ha⟩ : ∃ a, calcKdpRayFir cython true (tailRay 6) = .ok a := by
    revert h1; cases calcKdpRayFir cython true (tailRay 6) with
    | error e => intro h; cases h
    | ok a => exact fun _ => ⟨a, rfl⟩
  obtain ⟨b, hb⟩ : ∃ b, calcKdpRayFir cython true (tailRay 9) = .ok b := by
    revert h2; cases calcKdpRayFir cython true (tailRay 9) with
    | error e => intro h; cases h
    | ok a => exact fun _ => ⟨a, rfl⟩
  refine ⟨a, b, ha, hb, (C126_prefix_partial cython true (tailRay 6) (tailRay 9) 3 (by decide) ?_ a b ha hb).1⟩
  refine ⟨rfl, rfl, rfl, rfl, rfl, rfl, rfl, ⟨rfl, fun j j0 j1 => ?_⟩, ⟨rfl, fun _ _ _ => rfl⟩, ⟨rfl, fun _ _ _ => rfl⟩⟩
  have : j ≤ 5 := j1
  show (if j = 4 then QF.q (-5) else if 6 ≤ j then 9 else QF.q j) = (if j = 4 then QF.q (-5) else if 6 ≤ j then 6 else QF.q j)
  rw [if_neg (by omega : ¬ 6 ≤ j), if_neg (by omega : ¬ 6 ≤ j)]

/-- at gate 3 of these rays the filtered phase is not the flag, and the last gates do matter elsewhere: the filtered phases of gate 6 differ -/
example : (calcKdpRayFir cython true (tailRay 6)).toOption.map (fun o => o.dp[3]?) ≠ some (some (.q (-5))) ∧
    (calcKdpRayFir cython true (tailRay 6)).toOption.map (fun o => o.dp[6]?) ≠
      (calcKdpRayFir cython true (tailRay 9)).toOption.map (fun o => o.dp[6]?) := by decide +kernel

end Csu.Kdp
