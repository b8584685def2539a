import Verif.Props.KdpFir
import Verif.Props.KdpStd
/-! # C71: the KDP kernel returns a result (never raises) on every ray with distinct ranges -/
namespace Csu.Kdp
open Csu PyFloat KdpSpec

section
variable {α : Type} [PyFloat α]

/-- the computation returns a value -/
def Returns {β : Type} (x : Except PyErr β) : Prop := ∃ v, x = .ok v

theorem Returns.bind {β γ : Type} {x : Except PyErr β} {f : β → Except PyErr γ} (hx : Returns x)
    (hf : ∀ v, x = .ok v → Returns (f v)) : Returns (x >>= f) := by
  obtain ⟨v, rfl⟩ := hx; exact hf v rfl

theorem Returns.ok {β : Type} (v : β) : Returns (Except.ok v) := ⟨v, rfl⟩

theorem Returns.mapM {β γ : Type} {f : β → Except PyErr γ} {l : List β} (h : ∀ x ∈ l, Returns (f x)) : Returns (l.mapM f) := by
  induction l with
  | nil => exact ⟨_, rfl⟩
  | cons x l ih =>
    rw [List.mapM_cons]
    exact (h x (by simp)).bind fun v _ => (ih fun y hy => h y (by simp [hy])).bind fun r _ => ⟨_, rfl⟩

theorem Returns.foldlM {β σ : Type} {f : σ → β → Except PyErr σ} {l : List β} {s : σ} (h : ∀ s, ∀ x ∈ l, Returns (f s x)) :
    Returns (l.foldlM f s) := by
  induction l generalizing s with
  | nil => exact ⟨_, rfl⟩
  | cons x l ih =>
    rw [List.foldlM_cons]
    exact (h s x (by simp)).bind fun v _ => ih fun s y hy => h s y (by simp [hy])

theorem returns_rd (name : String) (b : Buf α) (i : Int) : Returns (rd false name b i) := ⟨b.mem i, by simp [rd]⟩
theorem returns_set (name : String) (b : Buf α) (i : Int) (v : α) : Returns (b.set false name i v) := ⟨_, by simp [Buf.set]; rfl⟩
theorem returns_push (acc : List (α × α)) (p : α × α) : Returns (push false acc p) := ⟨_, by simp [push]; rfl⟩

theorem returns_good (R : Ray α) (sd z : Buf α) (j : Int) : Returns (good false R sd z j) := by
  unfold good
  refine (returns_rd _ _ _).bind fun s _ => (returns_rd _ _ _).bind fun t _ => ?_
  split
  · exact (returns_rd _ _ _).bind fun v _ => .ok _
  · exact .ok _

theorem returns_collect (R : Ray α) (sd z : Buf α) (js : List Int) : Returns (collect false R sd z js) := by
  unfold collect
  refine .foldlM fun acc j _ => (returns_good _ _ _ _).bind fun g _ => ?_
  split
  · exact (returns_rd _ _ _).bind fun v _ => (returns_rd _ _ _).bind fun r _ => returns_push _ _
  · exact .ok _

theorem returns_fill (D : Dialect α) (R : Ray α) (ab : α × α) (js : List Int) (z : Buf α) :
    Returns (fill D false R ab js z) := by
  unfold fill
  refine .foldlM fun z j _ => (returns_rd _ _ _).bind fun v _ => ?_
  split
  · exact (returns_rd _ _ _).bind fun r _ => returns_set _ _ _ _
  · exact .ok _

theorem returns_firSum (D : Dialect α) (R : Ray α) (z : Buf α) (lo : Int) (js : List Int) :
    Returns (firSum D false R z lo js) := by
  unfold firSum
  exact .foldlM fun A j _ => (returns_rd _ _ _).bind fun c _ => (returns_rd _ _ _).bind fun v _ => .ok _

theorem returns_kdpCollect (R : Ray α) (z : Buf α) (js : List Int) : Returns (kdpCollect false R z js) := by
  unfold kdpCollect
  refine .foldlM fun acc j _ => (returns_rd _ _ _).bind fun v _ => ?_
  split
  · exact (returns_rd _ _ _).bind fun r _ => returns_push _ _
  · exact .ok _
end

/-- The Fortran kernel always returns: it has no exceptions. -/
theorem C71_fortran_returns {α : Type} [PyFloat α] (R : Ray α) : Returns (calcKdpRayFir fortran false R) := by
  have hlse : ∀ pts, Returns (lse fortran R.bad pts) := fun pts => by
    unfold lse; simp only [fortran, Bool.false_and, Bool.false_eq_true, if_false]; exact .ok _
  unfold calcKdpRayFir
  refine (Returns.mapM fun j _ => returns_rd _ _ _).bind fun z _ => (Returns.mapM fun i _ => ?_).bind fun sd _ => ?_
  · unfold sdAt
    split
    · refine (Returns.mapM fun j _ => returns_rd _ _ _).bind fun xs _ => ?_
      dsimp only
      simp only [fortran, Bool.false_and, Bool.false_eq_true, if_false]
      split <;> exact .ok _
    · exact .ok _
  · refine Returns.bind ?_ fun yz _ => ?_
    · generalize (ofList R.n (List.replicate R.n R.bad), ofList R.n z) = yz
      induction R.nf generalizing yz with
      | zero => exact .ok _
      | succ k ih =>
        unfold firPasses firPass
        refine Returns.bind (Returns.bind (.foldlM fun s i _ => ?_) fun r _ => .ok _) fun r _ => ih r
        unfold firGate
        refine (returns_good _ _ _ _).bind fun g _ => ?_
        split
        · refine (returns_collect _ _ _ _).bind fun pts _ => ?_
          split
          · refine Returns.bind ?_ fun z _ => ?_
            · split
              · exact (hlse _).bind fun ab _ => returns_fill _ _ _ _ _
              · exact .ok _
            · exact (returns_firSum _ _ _ _ _).bind fun A _ => (returns_set _ _ _ _).bind fun y _ => .ok _
          · exact .ok _
        · exact .ok _
    · refine Returns.bind ?_ fun kd _ => .ok _
      generalize R.nadp0 = m
      induction gates R.n generalizing m with
      | nil => exact .ok _
      | cons i is ih =>
        unfold kdpLoop
        refine Returns.bind ?_ fun p _ => (ih _).bind fun ks _ => .ok _
        unfold kdpGate
        refine (returns_rd _ _ _).bind fun d _ => ?_
        split
        · dsimp only
          refine Returns.bind ?_ fun pts _ => ?_
          · split
            · exact returns_kdpCollect _ _ _
            · exact .ok _
          · split
            · exact (hlse _).bind fun ab _ => .ok _
            · exact .ok _
        · exact .ok _

/-! ## The Cython kernel -/

theorem lse_sums_x (D : Dialect XR) (bad : XR) (pts : List (ℝ × XR))
    (hs : ∀ p ∈ pts, (D.skip bad (.fin p.1) || D.skip bad p.2) = false) (t x xx : ℝ) (y xy : XR) :
    let s := (pts.map (fun p => (XR.fin p.1, p.2))).foldl (lseStep D bad) ⟨.fin t, .fin x, y, .fin xx, xy⟩
    s.total = .fin t ∧ s.x = .fin (x + (pts.map (·.1)).sum) ∧ s.xx = .fin (xx + (pts.map (fun p => p.1 * p.1)).sum) := by
  induction pts generalizing x xx y xy with
  | nil => simp
  | cons p pts ih =>
    have h := hs p (by simp)
    have hstep : lseStep D bad ⟨.fin t, .fin x, y, .fin xx, xy⟩ (XR.fin p.1, p.2) =
        ⟨.fin t, .fin (x + p.1), y + p.2, .fin (xx + p.1 * p.1), xy + XR.fin p.1 * p.2⟩ := by
      unfold lseStep
      rw [if_neg (by simpa using h)]
      simp
    have := ih (fun q hq => hs q (by simp [hq])) (x + p.1) (xx + p.1 * p.1) (y + p.2) (xy + XR.fin p.1 * p.2)
    simp only [List.map_cons, List.foldl_cons, hstep, List.sum_cons]
    refine ⟨this.1, ?_, ?_⟩
    · rw [this.2.1, add_assoc]
    · rw [this.2.2, add_assoc]

/-- `LSE` returns a line as soon as two of the (good) samples have different finite abscissae — also when ordinates are
infinite or NaN. -/
theorem returns_lse (bad : XR) (pts : List (ℝ × XR)) (hs : ∀ p ∈ pts, (XR.fin p.1 !=. bad) = true ∧ (p.2 !=. bad) = true)
    (h2 : ∃ p ∈ pts, ∃ q ∈ pts, p.1 ≠ q.1) : Returns (lse cython bad (pts.map (fun p => (XR.fin p.1, p.2)))) := by
  have h00 : (0.0 : XR) = .fin 0 := by rw [XR.fsci]; norm_num
  have key := lse_sums_x cython bad pts (fun p hp => by
    have := hs p hp
    simp only [PyFloat.ne, Bool.not_eq_true'] at this
    simp [cython, this.1, this.2]) pts.length 0 0 (.fin 0) (.fin 0)
  obtain ⟨p, hp, q, hq, hpq⟩ := h2
  have hd : lseDet (lseSums cython bad (pts.map (fun p => (XR.fin p.1, p.2)))) =
      .fin (detR (pts.map (fun p => (p.1, (0 : ℝ))))) := by
    unfold lseSums lseDet
    simp only [XR.ff32]
    rw [List.length_map, h00, XR.fofNat, key.1, key.2.1, key.2.2, fpow_two]
    simp [detR, Function.comp_def]
  have hne : detR (pts.map (fun p => (p.1, (0 : ℝ)))) ≠ 0 :=
    (detR_ne_zero_iff _).mpr ⟨(p.1, 0), List.mem_map.mpr ⟨p, hp, rfl⟩, (q.1, 0), List.mem_map.mpr ⟨q, hq, rfl⟩, hpq⟩
  unfold lse
  dsimp only
  rw [hd]
  have : (XR.fin (detR (pts.map (fun p => (p.1, (0 : ℝ))))) ==. (0 : XR)) = false := by
    rw [XR.fzero, XR.feq]; simpa using hne
  rw [this]
  exact .ok _

/-- The ranges of a ray: real, pairwise distinct and not the bad value. -/
structure Ranges (R : Ray XR) (ρ : Int → ℝ) : Prop where
  val : ∀ j : Int, 0 ≤ j → j < R.n → R.rng.mem j = .fin (ρ j) ∧ (XR.fin (ρ j) !=. R.bad) = true
  inj : ∀ j k : Int, 0 ≤ j → j < R.n → 0 ≤ k → k < R.n → ρ j = ρ k → j = k

theorem nodup_rangeI (a b : Int) : (rangeI a b).Nodup := by
  unfold rangeI
  refine List.Nodup.map (fun x y h => ?_) List.nodup_range
  simp only [Int.ofNat_eq_natCast] at h; omega

/-- the fit over at least two good gates of a window returns -/
theorem returns_window {R : Ray XR} {ρ : Int → ℝ} (h : Ranges R ρ) (z : Buf XR) (js : List Int) (P : Int → Bool)
    (hn : js.Nodup) (hj : ∀ j ∈ js, 0 ≤ j ∧ j < R.n) (hP : ∀ j ∈ js, P j = true → (z.mem j !=. R.bad) = true)
    (hl : 2 ≤ (js.filter P).length) :
    Returns (lse cython R.bad ((js.filter P).map (fun j => (R.rng.mem j, z.mem j)))) := by
  have hmem : ∀ j ∈ js.filter P, (0 ≤ j ∧ j < R.n) ∧ (z.mem j !=. R.bad) = true := fun j hj' => by
    have := List.mem_filter.mp hj'
    exact ⟨hj j this.1, hP j this.1 this.2⟩
  have e : (js.filter P).map (fun j => (R.rng.mem j, z.mem j)) =
      ((js.filter P).map (fun j => (ρ j, z.mem j))).map (fun p => (XR.fin p.1, p.2)) := by
    rw [List.map_map]
    apply List.map_congr_left
    intro j hj'
    have := hmem j hj'
    simp [(h.val j this.1.1 this.1.2).1]
  rw [e]
  apply returns_lse
  · intro p hp
    obtain ⟨j, hj', rfl⟩ := List.mem_map.mp hp
    have := hmem j hj'
    exact ⟨(h.val j this.1.1 this.1.2).2, this.2⟩
  · have hnd : (js.filter P).Nodup := hn.filter P
    obtain ⟨a, b, l, hab⟩ : ∃ a b l, js.filter P = a :: b :: l := by
      match hm : js.filter P, hl with
      | a :: b :: l, _ => exact ⟨a, b, l, rfl⟩
    rw [hab] at hnd hmem
    have hne : a ≠ b := by
      have := List.nodup_cons.mp hnd
      intro hc; apply this.1; simp [hc]
    refine ⟨(ρ a, z.mem a), ?_, (ρ b, z.mem b), ?_, ?_⟩
    · rw [hab]; simp
    · rw [hab]; simp
    · have ha := hmem a (by simp)
      have hb := hmem b (by simp)
      intro hc
      exact hne (h.inj a b ha.1.1 ha.1.2 hb.1.1 hb.1.2 hc)

/-- returns a value with property `P` -/
def Ret {β : Type} (x : Except PyErr β) (P : β → Prop) : Prop := ∃ v, x = .ok v ∧ P v

theorem Ret.bind {β γ : Type} {x : Except PyErr β} {f : β → Except PyErr γ} {P : γ → Prop} (hx : Returns x)
    (hf : ∀ v, x = .ok v → Ret (f v) P) : Ret (x >>= f) P := by
  obtain ⟨v, rfl⟩ := hx; exact hf v rfl

theorem returns_kdpGate {R : Ray XR} {ρ : Int → ℝ} (h : Ranges R ρ) (z : Buf XR) {m i : Int} (hm : 0 ≤ m) :
    Ret (kdpGate cython false R z m i) (fun p => 0 ≤ p.2) := by
  have hnn : ∀ d, 0 ≤ nadpOf R d m := by
    intro d; unfold nadpOf; dsimp only
    split_ifs <;> omega
  unfold kdpGate
  refine .bind (returns_rd _ _ _) fun d _ => ?_
  split
  · generalize hw : nadpOf R d m = w
    have hw0 : 0 ≤ w := hw ▸ hnn d
    have hwr : (0 : ℝ) ≤ w := by exact_mod_cast hw0
    dsimp only
    by_cases hfit : 0 ≤ i - w / 2 ∧ i + w / 2 ≤ (R.n : Int) - 1
    · rw [if_pos hfit]
      refine .bind (returns_kdpCollect _ _ _) fun pts hp => ?_
      have hv := kdpCollect_val hp
      split
      · rename_i hc
        have hle : pts.length ≤ 2 * (w / 2).toNat := by
          rw [hv, List.length_map]
          refine (List.length_filter_le _ _).trans ?_
          rw [length_rangeI]; simp only [cython]; omega
        have hc' : (0.8 : ℝ) * w < pts.length := by
          simp only [wx, XR.fofNat, XR.fsci, XR.fofInt, XR.fmul, XR.fgt, decide_eq_true_eq] at hc
          exact hc
        have hlen : 2 ≤ pts.length := by
          by_contra hcon
          have hw2 : 2 ≤ w ∨ w < 2 := by omega
          rcases hw2 with hw2 | hw2
          · have : (2 : ℝ) ≤ w := by exact_mod_cast hw2
            have h3 : pts.length ≤ 1 := by omega
            have h4 : (pts.length : ℝ) ≤ 1 := by exact_mod_cast h3
            norm_num at hc'; linarith
          · have h3 : pts.length = 0 := by omega
            rw [h3] at hc'
            norm_num at hc'; linarith
        rw [hv, List.length_map] at hlen
        have hr := returns_window h z (rangeI (i - w / 2) (i + w / 2 + (cython : Dialect XR).winEnd)) (fun j => z.mem j !=. R.bad)
          (nodup_rangeI _ _) (fun j hj => by
            have := mem_rangeI.mp hj
            simp only [cython] at this; omega) (fun j _ hj => hj) hlen
        rw [← hv] at hr
        exact .bind hr fun ab _ => ⟨_, rfl, hw0⟩
      · exact ⟨_, rfl, hw0⟩
    · rw [if_neg hfit]
      refine .bind (.ok _) fun pts hp => ?_
      cases hp
      rw [if_neg]
      · exact ⟨_, rfl, hw0⟩
      · simp only [List.length_nil, XR.fofNat, XR.fsci, XR.fofInt, XR.fmul, XR.fgt, decide_eq_true_eq]
        norm_num; linarith
  · exact ⟨_, rfl, hm⟩

theorem returns_firGate {R : Ray XR} {ρ : Int → ℝ} (h : Ranges R ρ) (he : R.order % 2 = 0) (sd : Buf XR)
    (yz : Buf XR × Buf XR) {i : Int} (h0 : R.half ≤ i) (h1 : i < (R.n : Int) - R.half) :
    Returns (firGate cython false R sd yz i) := by
  unfold firGate
  refine (returns_good _ _ _ _).bind fun g _ => ?_
  split
  · refine (returns_collect _ _ _ _).bind fun pts hp => ?_
    have hv := collect_val hp
    split
    · rename_i hc
      refine Returns.bind ?_ fun z _ => ?_
      · split
        · rename_i hlt
          refine Returns.bind ?_ fun ab _ => returns_fill _ _ _ _ _
          rw [hv]
          refine returns_window h yz.2 _ _ (nodup_rangeI _ _) (fun j hj => ?_) (fun j _ hj => ?_) ?_
          · have := mem_rangeI.mp hj; omega
          · simp only [Bool.and_eq_true] at hj; exact hj.2
          · have hc' : (0.8 : ℝ) * R.order < pts.length := by
              simp only [wx, XR.fofNat, XR.fsci, XR.fmul, XR.fgt, decide_eq_true_eq] at hc
              exact hc
            have hl2 : 2 ≤ pts.length := by
              by_contra hcon
              have ho : R.order = 0 ∨ 2 ≤ R.order := by omega
              rcases ho with ho | ho
              · rw [ho] at hc' hlt
                have : pts.length = 0 := by omega
                rw [this] at hc'; norm_num at hc'
              · have h2 : (2 : ℝ) ≤ R.order := by exact_mod_cast ho
                have h3 : (pts.length : ℝ) ≤ 1 := by
                  have : pts.length ≤ 1 := by omega
                  exact_mod_cast this
                norm_num at hc'; linarith
            rw [hv, List.length_map] at hl2
            exact hl2
        · exact .ok _
      · exact (returns_firSum _ _ _ _ _).bind fun A _ => (returns_set _ _ _ _).bind fun y _ => .ok _
    · exact .ok _
  · exact .ok _

/-- **C71.** The Cython kernel returns a result — it never raises — on every ray whose ranges are real, pairwise distinct
and not the bad value, for every phase, reflectivity, threshold (NaN and infinities included), number of passes, even order
and positive window; the uninitialised window size must not be negative. -/
theorem C71_cython_returns (R : Ray XR) (ρ : Int → ℝ) (h : Ranges R ρ) (he : R.order % 2 = 0) (hs : 1 ≤ R.stdGate)
    (hn : 0 ≤ R.nadp0) : Returns (calcKdpRayFir cython false R) := by
  unfold calcKdpRayFir
  refine (Returns.mapM fun j _ => returns_rd _ _ _).bind fun z _ => (Returns.mapM fun i _ => ?_).bind fun sd _ => ?_
  · unfold sdAt
    split
    · refine (Returns.mapM fun j _ => returns_rd _ _ _).bind fun xs _ => ?_
      dsimp only
      split
      · rename_i hN
        have : 0 ≤ R.halfStd := by unfold Ray.halfStd; omega
        rw [if_neg]
        · exact .ok _
        · simp only [Bool.and_eq_true, beq_iff_eq]; omega
      · exact .ok _
    · exact .ok _
  · refine Returns.bind ?_ fun yz _ => ?_
    · generalize (ofList R.n (List.replicate R.n R.bad), ofList R.n z) = yz
      induction R.nf generalizing yz with
      | zero => exact .ok _
      | succ k ih =>
        unfold firPasses firPass
        refine Returns.bind (Returns.bind (.foldlM fun s i hi => ?_) fun r _ => .ok _) fun r _ => ih r
        have := mem_rangeI.mp hi
        exact returns_firGate h he _ _ this.1 this.2
    · refine Returns.bind ?_ fun kd _ => .ok _
      generalize R.nadp0 = m at hn
      induction gates R.n generalizing m with
      | nil => exact .ok _
      | cons i is ih =>
        unfold kdpLoop
        obtain ⟨p, hp, hp0⟩ := returns_kdpGate h yz.2 (m := m) (i := i) hn
        rw [hp]
        exact (ih _ hp0).bind fun ks _ => .ok _

/-- Two gates at the same range can make it raise: the fit is then undefined. -/
theorem C71_equal_ranges_raise : ∃ R : Ray QF, ApiCall R ∧ calcKdpRayFir cython false R = .error .zeroDivisionError :=
  ⟨{ stale 50 with rng := arr [1, 1, 1, 1, 1, 1, 1] 0 }, by constructor <;> simp [stale, arr], by decide +kernel⟩

/-- A ray of three gates with phase linear in range. -/
noncomputable def linRay : Ray XR :=
  { n := 3, dp := ⟨3, fun i => .fin (3 + 2 * i)⟩, dz := ⟨3, fun _ => .fin 40⟩, rng := ⟨3, fun i => .fin i⟩,
    thsd := ⟨3, fun _ => .fin 12⟩, nf := 1, bad := .fin (-32768), order := 2, gain := .fin 1,
    coef := ⟨3, fun i => if i = 1 then .fin 0.5 else .fin 0.25⟩, stdGate := 1, nadp0 := 0 }

theorem linRay_ranges : Ranges linRay (fun j => (j : ℝ)) := by
  constructor
  · intro j h0 _
    refine ⟨rfl, ?_⟩
    show (XR.fin (j : ℝ) !=. XR.fin (-32768)) = true
    have : (0 : ℝ) ≤ j := by exact_mod_cast h0
    simp only [XR.fne, decide_eq_true_eq]
    intro hc; linarith
  · intro j k _ _ _ _ h; exact_mod_cast h

/-- so the kernel returns on it -/
example : Returns (calcKdpRayFir cython false linRay) :=
  C71_cython_returns linRay _ linRay_ranges (by decide) (by decide) (by decide)

/-- and its standard deviations are 0, so all hypotheses of `C11_linear_phase_fortran` hold for its middle gate -/
example : ∃ out, calcKdpRayFir fortran false linRay = .ok out ∧ out.dp[1]? = some (.fin (3 + 2 * ((1 : ℕ) : ℝ))) := by
  obtain ⟨out, e⟩ := C71_fortran_returns linRay
  refine ⟨out, e, ?_⟩
  have hgood : ∀ j : Nat, goodPhases linRay 0 j = [3 + 2 * (j : ℝ)].map XR.fin := by
    intro j
    have : ((3 : ℝ) + 2 * j = -32768) = False := by
      have : (0 : ℝ) ≤ j := by positivity
      simp only [eq_iff_iff, iff_false]; intro h; linarith
    simp [goodPhases, window, linRay, this]
  have hsd : ∀ j : Nat, j < 3 → out.sd[j]? = some (.fin 0) := by
    intro j hj
    rw [(C09_population_std fortran false linRay 0 rfl out e j hj).2.2 [3 + 2 * (j : ℝ)] (by omega) (by simpa [linRay] using hj) (by simp)
      (hgood j)]
    simp [popStd]
  refine C11_linear_phase_fortran false linRay rfl rfl rfl out e 1 (by decide) (by decide) (fun j h1 h2 => ⟨⟨.fin 0, ?_, ?_⟩, ?_⟩)
    (fun k => if k = 1 then 0.5 else 0.25) (fun k _ => ?_) ?_ ?_ 3 2 (fun j _ _ => ?_)
  · exact hsd j (by have : linRay.order / 2 = 1 := rfl; omega)
  · show (XR.fin 0 <=. XR.fin 12) = true
    simp
  · show (XR.fin (3 + 2 * ((j : Int) : ℝ)) !=. XR.fin (-32768)) = true
    have : (0 : ℝ) ≤ j := by positivity
    simp only [XR.fne, decide_eq_true_eq]; push_cast; intro h; linarith
  · show (if (k : Int) = 1 then XR.fin 0.5 else XR.fin 0.25) = _
    by_cases hk : k = 1
    · simp [hk]
    · have : ¬ ((k : Int) = 1) := by omega
      simp [hk]
  · intro k hk
    have : linRay.order = 2 := rfl
    rw [this] at hk ⊢
    interval_cases k <;> norm_num
  · have : linRay.order = 2 := rfl
    rw [this]; norm_num [Finset.sum_range_succ]
  · show XR.fin (3 + 2 * ((j : Int) : ℝ)) = _
    push_cast; rfl

/-- the same ray with phase 8 everywhere -/
noncomputable def constRay : Ray XR := { linRay with dp := ⟨3, fun _ => .fin 8⟩ }

/-- The hypotheses of `C11_constant_phase_cython` are met: phase 8 everywhere, coefficients 1/4, 1/2, 1/4, and 1/4 in the memory
behind them (then the error cancels); had there been 0, the filtered phase would be 6. -/
example : ∃ out, calcKdpRayFir cython false constRay = .ok out ∧ out.dp[1]? = some (.fin 8) := by
  obtain ⟨out, e⟩ := C71_cython_returns constRay _ (⟨linRay_ranges.val, linRay_ranges.inj⟩ : Ranges constRay (fun j => (j : ℝ))) (by decide) (by decide)
    (by decide)
  refine ⟨out, e, ?_⟩
  have h8 : ((8 : ℝ) = -32768) = False := by norm_num
  have hsd : ∀ j : Nat, j < 3 → out.sd[j]? = some (.fin 0) := by
    intro j hj
    rw [(C09_population_std cython false constRay 0 rfl out e j hj).2.2 [8] (by omega) (by simpa [constRay, linRay] using hj) (by simp)
      (by simp [goodPhases, window, constRay, linRay, h8])]
    simp [popStd]
  have := C11_constant_phase_cython constRay rfl rfl rfl out e 1 (by decide) (by decide) (fun j h1 h2 => ⟨⟨.fin 0, hsd j (by
      have : constRay.order / 2 = 1 := rfl
      omega), (by show (XR.fin 0 <=. XR.fin 12) = true; simp)⟩, (by show (XR.fin 8 !=. XR.fin (-32768)) = true; simp [h8])⟩)
    (fun k => if k = 1 then 0.5 else 0.25) (fun k _ => by
      show (if (k : Int) = 1 then XR.fin 0.5 else XR.fin 0.25) = _
      by_cases hk : k = 1
      · simp [hk]
      · have : ¬ ((k : Int) = 1) := by omega
        simp [hk]) 0.25 rfl (by
      have : constRay.order = 2 := rfl
      rw [this]; norm_num [Finset.sum_range_succ]) 8 (fun _ _ _ => rfl)
  rw [this]; norm_num

end Csu.Kdp
