import Verif.Props.KdpRound
/-!
# How accurate is KDP?

The slope that `LSE` computes in single precision, compared with the exact least-squares slope of the same samples, and the KDP of the kernel compared
with half the slope of the filtered phase that it returns (C148).
-/
namespace Csu.Kdp
open Csu PyFloat KdpSpec
namespace Fp
open Ieee IeeeFloat

/-- the smallest numbers are absolutely, not relatively, accurate -/
noncomputable def η : ℝ := (2 : ℝ) ^ (-100 : ℤ)

theorem η0 : 0 < η := by unfold η; positivity

theorem rr_neg (x : ℝ) : rnd32 Binary64 (rnd Binary64 (.fin (-x))) = XR.neg (rnd32 Binary64 (rnd Binary64 (.fin x))) := by
  show Fmt.single.round (double.round (.fin (-x))) = XR.neg (Fmt.single.round (double.round (.fin x)))
  rw [← Fmt.round_neg, ← Fmt.round_neg]; rfl

/-- rounding any number of reasonable size -/
theorem rr_any {e : ℝ} (h : |e| ≤ (2 : ℝ) ^ (100 : ℤ)) : ∃ v : ℝ, rnd32 Binary64 (rnd Binary64 (.fin e)) = .fin v ∧ |v - e| ≤ δ * |e| + η := by
  have pos : ∀ e : ℝ, 0 ≤ e → e ≤ (2 : ℝ) ^ (100 : ℤ) → ∃ v : ℝ, rnd32 Binary64 (rnd Binary64 (.fin e)) = .fin v ∧ |v - e| ≤ δ * |e| + η := by
    intro e h0 h1
    by_cases h2 : (2 : ℝ) ^ (-100 : ℤ) ≤ e
    · obtain ⟨v, hv, a, b⟩ := round3264 h2 h1
      refine ⟨v, hv, ?_⟩
      rw [abs_of_nonneg h0, abs_le]
      have := η0
      constructor <;> linarith
    · have hone : Simple ((2 : ℝ) ^ (-100 : ℤ)) := ⟨1, -100, by norm_num, by norm_num, by norm_num⟩
      have hm := rnd_mono (α := Binary64) (.fin e) (.fin ((2 : ℝ) ^ (-100 : ℤ))) (by rw [le_fin]; exact le_of_not_ge h2)
      rw [rnd_simple hone] at hm
      have hm2 := rnd32_mono (α := Binary64) _ _ hm
      rw [rnd32_simple hone] at hm2
      have hn := rnd_ge (α := Binary64) (x := .fin e) simple_zero (by rw [le_fin]; exact h0)
      have hn2 := rnd32_mono (α := Binary64) _ _ hn
      rw [rnd32_simple simple_zero] at hn2
      obtain ⟨v, hv, v0, v1⟩ := between hn2 hm2
      refine ⟨v, hv, ?_⟩
      have := δ0
      have h3 : 0 ≤ δ * |e| := by positivity
      have h4 : e < η := lt_of_not_ge h2
      rw [abs_le]
      constructor
      · linarith
      · have : v ≤ η := v1
        linarith
  rcases le_total 0 e with h0 | h0
  · exact pos e h0 (by rwa [abs_of_nonneg h0] at h)
  · obtain ⟨v, hv, b⟩ := pos (-e) (by linarith) (by rwa [abs_of_nonpos h0] at h)
    refine ⟨-v, ?_, ?_⟩
    · have := rr_neg (-e)
      rw [neg_neg] at this
      rw [this, hv]; rfl
    · rw [abs_neg] at b
      rw [show -v - e = -(v - -e) by ring, abs_neg]; exact b

theorem ysums_near (bad : Binary64) (pts : List (Binary64 × Binary64)) (ρ φ : Binary64 × Binary64 → ℝ)
    (hv : ∀ p ∈ pts, val p.1 = .fin (ρ p)) (hr : ∀ p ∈ pts, OkRange (ρ p)) (hw : ∀ p ∈ pts, val p.2 = .fin (φ p)) (hf : ∀ p ∈ pts, OkRange (φ p))
    (hs : ∀ p ∈ pts, (p.1 ==. bad) = false ∧ (p.2 ==. bad) = false) (s : Sums Binary64) (k : ℕ) (X Q x q : ℝ) (hk : k + pts.length ≤ 100000)
    (hx : val s.y = .fin x) (hq : val s.xy = .fin q) (nx : Near k X x) (nq : Near (k + 1) Q q)
    (ox : OkSum k (2 ^ (-30 : ℤ)) (2 ^ (30 : ℤ)) X) (oq : OkSum k (2 ^ (-60 : ℤ)) (2 ^ (60 : ℤ)) Q) :
    ∃ x' q', let r := pts.foldl (lseStep cython bad) s
      val r.y = .fin x' ∧ val r.xy = .fin q' ∧ Near (k + pts.length) (X + (pts.map φ).sum) x' ∧
      Near (k + pts.length + 1) (Q + (pts.map (fun p => ρ p * φ p)).sum) q' := by
  induction pts generalizing s k X Q x q with
  | nil => exact ⟨x, q, hx, hq, by simpa using nx, by simpa using nq⟩
  | cons p pts ih =>
    rw [List.length_cons] at hk
    have hp := hf p (by simp)
    have hpr := hr p (by simp)
    have hsp := hs p (by simp)
    have hvp := hv p (by simp)
    have hwp := hw p (by simp)
    have p0 := hp.nonneg
    have r0 := hpr.nonneg
    have ok : ∀ z : ℝ, OkRange z → (z = 0 ∨ (2 : ℝ) ^ (-30 : ℤ) ≤ z) ∧ z ≤ (2 : ℝ) ^ (30 : ℤ) := fun z hz => by
      rcases hz with h | h
      · exact ⟨.inl h, by rw [h]; positivity⟩
      · exact ⟨.inr h.1, h.2⟩
    have okx := ok _ hp
    have okr := ok _ hpr
    have okq : (ρ p * φ p = 0 ∨ (2 : ℝ) ^ (-60 : ℤ) ≤ ρ p * φ p) ∧ ρ p * φ p ≤ (2 : ℝ) ^ (60 : ℤ) := by
      constructor
      · rcases okr.1 with h | h
        · left; rw [h, zero_mul]
        · rcases okx.1 with h' | h'
          · left; rw [h', mul_zero]
          · right
            calc (2 : ℝ) ^ (-60 : ℤ) = 2 ^ (-30 : ℤ) * 2 ^ (-30 : ℤ) := by norm_num
              _ ≤ _ := mul_le_mul h h' (by positivity) r0
      · calc ρ p * φ p ≤ 2 ^ (30 : ℤ) * 2 ^ (30 : ℤ) := mul_le_mul okr.2 okx.2 p0 (by positivity)
          _ = 2 ^ (60 : ℤ) := by norm_num
    have hkR : (k : ℝ) + 1 ≤ 100000 := by exact_mod_cast (by omega : k + 1 ≤ 100000)
    have ox' := ox.add (by positivity) okx
    have ax := nx.add ((Near.refl (φ p)).mono p0 (Nat.zero_le k))
    obtain ⟨x', ex, nx'⟩ := near_round ax (by omega) (ox'.1.imp_right (le_trans (by norm_num))) (ox'.2.trans (by push_cast; norm_num at *; nlinarith))
    obtain ⟨w, ew, nw⟩ := near_round64 (Near.refl (ρ p * φ p)) (by omega) (okq.1.imp_right (le_trans (by norm_num))) (okq.2.trans (by norm_num))
    have oq' := oq.add (by positivity) okq
    have aq := nq.add (nw.mono (mul_nonneg r0 p0) (by omega : 0 + 1 ≤ k + 1))
    obtain ⟨q', eq, nq'⟩ := near_round aq (by omega) (oq'.1.imp_right (le_trans (by norm_num))) (oq'.2.trans (by push_cast; norm_num at *; nlinarith))
    set s1 := lseStep cython bad s p with hs1
    have hstep : s1 = ⟨s.total, f32 (s.x + p.1), f32 (s.y + p.2), f32 (s.xx + p.1 * p.1), f32 (s.xy + p.1 * p.2)⟩ := by
      rw [hs1]; unfold lseStep
      rw [if_neg (by simp [cython, hsp.1, hsp.2])]
      simp [Dialect.w, cython]
    have h1 : val s1.y = .fin x' := by
      rw [hstep]; dsimp only
      rw [val_f32, vadd, hx, hwp, XR.fadd, ex]
    have h2 : val s1.xy = .fin q' := by
      rw [hstep]; dsimp only
      rw [val_f32, vadd, vmul, hq, hvp, hwp, XR.fmul, ew, XR.fadd, eq]
    obtain ⟨x2, q2, b, c, d, e⟩ := ih (fun p hp => hv p (by simp [hp])) (fun p hp => hr p (by simp [hp])) (fun p hp => hw p (by simp [hp]))
      (fun p hp => hf p (by simp [hp])) (fun p hp => hs p (by simp [hp])) s1 (k + 1) _ _ x' q' (by omega) h1 h2 nx' nq' ox' oq'
    refine ⟨x2, q2, b, c, ?_, ?_⟩
    · rw [List.length_cons, show k + (pts.length + 1) = k + 1 + pts.length by ring, List.map_cons, List.sum_cons]
      rw [add_assoc X] at d; exact d
    · rw [List.length_cons, show k + (pts.length + 1) = k + 1 + pts.length by ring, List.map_cons, List.sum_cons]
      rw [add_assoc Q] at e; exact e

/-- `k ≤ 200005` relative errors, additively -/
theorem Near.err {k : ℕ} {a v : ℝ} (h : Near k a v) (ha : 0 ≤ a) (hk : k ≤ 200005) : |v - a| ≤ 1.02 * (k * δ) * a := by
  have hk' : (k : ℝ) ≤ 200005 := by exact_mod_cast hk
  have hd : (k : ℝ) * δ ≤ 0.0126 := by unfold δ; linarith
  have h0 : 0 ≤ (k : ℝ) * δ := by have := δ0; positivity
  have l := low k
  have u2 : (1 + δ) ^ k ≤ 1 + 1.02 * ((k : ℝ) * δ) := by
    refine (high k (by linarith)).trans ?_
    rw [div_le_iff₀ (by linarith)]
    nlinarith
  have a1 := (mul_le_mul_of_nonneg_right l ha).trans h.1
  have a2 := h.2.trans (mul_le_mul_of_nonneg_right u2 ha)
  have : 0 ≤ (k : ℝ) * δ * a := mul_nonneg h0 ha
  rw [abs_le]
  constructor <;> nlinarith

/-- a difference of two rounded nonnegative numbers, rounded -/
theorem diff_err {N : ℕ} (hN : N ≤ 100000) {P Q A B G : ℝ} (hP0 : 0 ≤ P) (hQ0 : 0 ≤ Q) (hP : P ≤ G) (hQ : Q ≤ G) (hG : G ≤ (2 : ℝ) ^ (97 : ℤ))
    (hGlow : G = 0 ∨ (2 : ℝ) ^ (-70 : ℤ) ≤ G) (hA : Near (N + 2) P A) (hB : Near (2 * N + 1) Q B) :
    ∃ v : ℝ, rnd32 Binary64 (rnd Binary64 (.fin (A - B))) = .fin v ∧ |v - (P - Q)| ≤ (3.06 * N + 5) * δ * G := by
  have hN' : (N : ℝ) ≤ 100000 := by exact_mod_cast hN
  have hN0 : (0 : ℝ) ≤ N := by positivity
  have hG0 : 0 ≤ G := hP0.trans hP
  have dpos := δ0
  have eA := hA.err hP0 (by omega)
  have eB := hB.err hQ0 (by omega)
  push_cast at eA eB
  have eA' : |A - P| ≤ 1.02 * ((N + 2) * δ) * G := eA.trans (by gcongr)
  have eB' : |B - Q| ≤ 1.02 * ((2 * N + 1) * δ) * G := eB.trans (by gcongr)
  have hPQ : |P - Q| ≤ G := by rw [abs_le]; constructor <;> linarith
  have hAB : |(A - B) - (P - Q)| ≤ (3.06 * N + 3.06) * δ * G := by
    have : |(A - B) - (P - Q)| ≤ |A - P| + |B - Q| := by
      rw [show (A - B) - (P - Q) = (A - P) - (B - Q) by ring]; exact abs_sub _ _
    nlinarith
  have hsmall : (3.06 * N + 3.06) * δ ≤ 0.02 := by unfold δ; linarith
  have hsz : |A - B| ≤ 1.02 * G := by
    have := abs_sub_abs_le_abs_sub (A - B) (P - Q)
    nlinarith
  rcases hGlow with hG1 | hG1
  · have : A - B = 0 := abs_eq_zero.mp (le_antisymm (by rw [hG1] at hsz; linarith) (abs_nonneg _))
    refine ⟨0, by rw [this, rnd_simple simple_zero, rnd32_simple simple_zero], ?_⟩
    rw [hG1] at hPQ ⊢
    rw [zero_sub, abs_neg]; linarith
  · obtain ⟨v, hv, e⟩ := rr_any (e := A - B) (hsz.trans (by
      calc 1.02 * G ≤ 1.02 * 2 ^ (97 : ℤ) := by gcongr
        _ ≤ _ := by norm_num))
    refine ⟨v, hv, ?_⟩
    have hη : η ≤ 0.5 * (δ * G) := by
      calc η ≤ 0.5 * (δ * 2 ^ (-70 : ℤ)) := by unfold η δ; norm_num
        _ ≤ _ := by gcongr
    have : |v - (P - Q)| ≤ |v - (A - B)| + |(A - B) - (P - Q)| := abs_sub_le _ _ _
    have h5 : δ * |A - B| ≤ δ * (1.02 * G) := by gcongr
    nlinarith [mul_nonneg dpos.le hG0]

/-- a quotient: `num ≈ W`, `det ≈ V` -/
theorem quot_err {num det W V c G K : ℝ} (hV : 0 < V) (hVK : V ≤ K) (h1 : |num - W| ≤ c * G) (h2 : |det - V| ≤ c * K)
    (hc : 2 * (c * K) ≤ V) : 0 < det ∧ |num / det - W / V| ≤ 2 * c * (G + |W / V| * K) / V := by
  have hdl := (abs_le.mp h2).1
  have hd : V / 2 ≤ det := by linarith
  have hd0 : 0 < det := by linarith
  refine ⟨hd0, ?_⟩
  have e : num / det - W / V = ((num - W) - W / V * (det - V)) / det := by field_simp; ring
  rw [e, abs_div, abs_of_pos hd0, div_le_div_iff₀ hd0 hV]
  have h3 : |(num - W) - W / V * (det - V)| ≤ c * G + |W / V| * (c * K) := by
    refine (abs_sub _ _).trans (add_le_add h1 ?_)
    rw [abs_mul]; gcongr
  have h0 : 0 ≤ c * G + |W / V| * (c * K) := (abs_nonneg _).trans h3
  calc |(num - W) - W / V * (det - V)| * V ≤ (c * G + |W / V| * (c * K)) * V := by gcongr
    _ ≤ (c * G + |W / V| * (c * K)) * (2 * det) := by gcongr; linarith
    _ = 2 * c * (G + |W / V| * K) * det := by ring

/-- twice as well resolved as needed for `det` to be positive -/
def Resolved2 (N : ℕ) (s H : ℝ) : Prop := 24 * (3.1 * N + 6) * H ^ 2 ≤ 16000000 * (s ^ 2 * (N ^ 2 - 1))

theorem Resolved2.resolved {N : ℕ} {s H : ℝ} (h : Resolved2 N s H) : Resolved N s H := by
  unfold Resolved2 at h
  unfold Resolved
  have : 0 ≤ (3.1 * (N : ℝ) + 4) * H ^ 2 := by positivity
  nlinarith [sq_nonneg H]

/-- from the quotient to KDP: two more roundings -/
theorem half_err {t m c G K V : ℝ} (hV : 0 < V) (hVK : V ≤ K) (hG : 0 ≤ G) (hc0 : 0 ≤ c) (hc : c ≤ 0.02) (ht : |t - m| ≤ 2 * c * (G + |m| * K) / V)
    (hsz : |t| ≤ (2 : ℝ) ^ (90 : ℤ)) :
    ∃ v w : ℝ, rnd32 Binary64 (rnd Binary64 (.fin t)) = .fin v ∧ rnd32 Binary64 (rnd Binary64 (.fin (0.5 * v))) = .fin w ∧
      |w - m / 2| ≤ (c + 2 * δ) * ((G + |m| * K) / V) + 2 * η := by
  have dpos := δ0
  have dsm : δ ≤ 0.01 := by unfold δ; norm_num
  have epos := η0
  have esm : η ≤ 1 := by unfold η; norm_num
  obtain ⟨v, hv, ev⟩ := rr_any (e := t) (hsz.trans (by norm_num))
  have hvsz : |v| ≤ 2 * (2 : ℝ) ^ (90 : ℤ) := by
    have h1 := abs_sub_abs_le_abs_sub v t
    have h2 : (1 : ℝ) ≤ 2 ^ (90 : ℤ) := by norm_num
    have h3 : δ * |t| ≤ 0.01 * |t| := by gcongr
    nlinarith
  obtain ⟨w, hw, ew⟩ := rr_any (e := 0.5 * v) (by
    rw [abs_mul, abs_of_pos (by norm_num : (0 : ℝ) < 0.5)]
    refine (mul_le_mul_of_nonneg_left hvsz (by norm_num)).trans (by norm_num))
  refine ⟨v, w, hv, hw, ?_⟩
  rw [abs_mul, abs_of_pos (by norm_num : (0 : ℝ) < 0.5)] at ew
  have ht' : |t - m| ≤ 2 * c * ((G + |m| * K) / V) := by rw [← mul_div_assoc]; exact ht
  have hE : |m| ≤ (G + |m| * K) / V := by
    rw [le_div_iff₀ hV]
    have : |m| * V ≤ |m| * K := by gcongr
    linarith
  set E := (G + |m| * K) / V with hEd
  have hE0 : 0 ≤ E := (abs_nonneg m).trans hE
  have h1 : |t| ≤ |m| + |t - m| := by
    have := abs_sub_abs_le_abs_sub t m; linarith
  have h2 : |v - m| ≤ |v - t| + |t - m| := abs_sub_le _ _ _
  have h3 : |v| ≤ |m| + |v - m| := by
    have := abs_sub_abs_le_abs_sub v m; linarith
  have h4 : |w - m / 2| ≤ |w - 0.5 * v| + 0.5 * |v - m| := by
    have := abs_sub_le w (0.5 * v) (m / 2)
    rw [show 0.5 * v - m / 2 = 0.5 * (v - m) by ring, abs_mul, abs_of_pos (by norm_num : (0 : ℝ) < 0.5)] at this
    exact this
  have hcE : 2 * c * E ≤ 0.04 * E := by nlinarith
  have h5 : |t| ≤ 1.04 * E := by linarith
  have h6 : δ * |t| ≤ δ * (1.04 * E) := by gcongr
  have h7 : |v - m| ≤ 2 * c * E + δ * (1.04 * E) + η := by linarith
  have hδE : δ * (1.04 * E) ≤ 0.0104 * E := by nlinarith
  have h8 : |v| ≤ 1.06 * E + η := by linarith
  have h9 : δ * (0.5 * |v|) ≤ δ * (0.5 * (1.06 * E + η)) := by gcongr
  have h10 : δ * η ≤ 0.01 * η := by nlinarith
  have h11 : 0 ≤ δ * E := mul_nonneg dpos.le hE0
  nlinarith

theorem sum_zero_or {lo : ℝ} (h0 : 0 ≤ lo) (l : List ℝ) (h : ∀ x ∈ l, x = 0 ∨ lo ≤ x) : (l.sum = 0 ∨ lo ≤ l.sum) ∧ 0 ≤ l.sum := by
  induction l with
  | nil => simp
  | cons x t ih =>
    obtain ⟨a, b⟩ := ih (fun z hz => h z (by simp [hz]))
    rw [List.sum_cons]
    rcases h x (by simp) with hx | hx
    · rw [hx, zero_add]; exact ⟨a, b⟩
    · exact ⟨.inr (by linarith), by linarith⟩

theorem sum_le_of {β : Type} (l : List β) (f g : β → ℝ) (h : ∀ x ∈ l, f x ≤ g x) : (l.map f).sum ≤ (l.map g).sum := by
  induction l with
  | nil => simp
  | cons x t ih =>
    simp only [List.map_cons, List.sum_cons]
    exact add_le_add (h x (by simp)) (ih (fun z hz => h z (by simp [hz])))

theorem sum_scale {β : Type} (l : List β) (f : β → ℝ) (c : ℝ) : (l.map (fun x => c * f x)).sum = c * (l.map f).sum := by
  induction l with
  | nil => simp
  | cons x t ih => simp only [List.map_cons, List.sum_cons]; rw [ih]; ring

theorem sum_const {β : Type} (l : List β) (c : ℝ) : (l.map (fun _ => c)).sum = l.length * c := by
  induction l with
  | nil => simp
  | cons x t ih => simp only [List.map_cons, List.sum_cons, List.length_cons]; rw [ih]; push_cast; ring

set_option maxHeartbeats 4000000 in
/-- The fit: `LSE` returns, and half its slope is half the slope of the least-squares line of the samples, up to rounding. -/
theorem lse_err (bad : Binary64) (pts : List (Binary64 × Binary64)) (ρ φ : Binary64 × Binary64 → ℝ) (s H Φ : ℝ) (hs0 : 0 < s)
    (hN : 2 ≤ pts.length) (hN2 : pts.length ≤ 100000)
    (hv : ∀ p ∈ pts, val p.1 = .fin (ρ p)) (hr : ∀ p ∈ pts, OkRange (ρ p)) (hH : ∀ p ∈ pts, ρ p ≤ H)
    (hw : ∀ p ∈ pts, val p.2 = .fin (φ p)) (hf : ∀ p ∈ pts, OkRange (φ p)) (hΦ : ∀ p ∈ pts, φ p ≤ Φ)
    (hs : ∀ p ∈ pts, (p.1 ==. bad) = false ∧ (p.2 ==. bad) = false)
    (hp : (pts.map ρ).Pairwise (fun a b => a + s ≤ b)) (hres : Resolved2 pts.length s H) :
    ∃ (a b : Binary64) (w : ℝ), lse cython bad pts = .ok (a, b) ∧ val (f32 (0.5 * a)) = .fin w ∧
      |w - slopeR (pts.map (fun p => (ρ p, φ p))) / 2| ≤
        12 * (3.1 * pts.length + 7) * H * (Φ + |slopeR (pts.map (fun p => (ρ p, φ p)))| * H) / (16000000 * (s ^ 2 * (pts.length ^ 2 - 1))) + 2 * η := by
  set N := pts.length with hNd
  have h00 : val (0.0 : Binary64) = .fin 0 := by
    show val (PyFloat.lit _ : Binary64) = _
    rw [val_lit, show (((OfScientific.ofScientific 0 true 1 : ℚ)) : ℝ) = 0 by norm_num]
    exact rnd_simple simple_zero
  have hNs : Simple (N : ℝ) := by
    have := simple_int (N : ℤ) (by rw [abs_of_nonneg (by omega)]; have : N ≤ 2 ^ 24 := hN2.trans (by norm_num)
                                   exact_mod_cast this)
    simpa using this
  have hT : val (f32 (PyFloat.ofNat N) : Binary64) = .fin (N : ℝ) := by
    rw [val_f32, vnat, rnd_simple hNs, rnd32_simple hNs]
  obtain ⟨x, q, t, ex, eq, nx, nq⟩ := sums_near bad pts ρ hv hr hs ⟨f32 (PyFloat.ofNat N), 0.0, 0.0, 0.0, 0.0⟩ 0 0 0 0 0 (by omega) h00 h00
    (Near.refl 0) ((Near.refl 0).mono (le_refl _) (by omega)) ⟨.inl rfl, by simp⟩ ⟨.inl rfl, by simp⟩
  obtain ⟨y, u, ey, eu, ny, nu⟩ := ysums_near bad pts ρ φ hv hr hw hf hs ⟨f32 (PyFloat.ofNat N), 0.0, 0.0, 0.0, 0.0⟩ 0 0 0 0 0 (by omega) h00 h00
    (Near.refl 0) ((Near.refl 0).mono (le_refl _) (by omega)) ⟨.inl rfl, by simp⟩ ⟨.inl rfl, by simp⟩
  rw [Nat.zero_add, zero_add, ← hNd] at nx nq ny nu
  set r := pts.foldl (lseStep cython bad) ⟨f32 (PyFloat.ofNat N), 0.0, 0.0, 0.0, 0.0⟩ with hrd
  have hsum : lseSums cython bad pts = r := rfl
  -- facts about the exact sums
  have r0 : ∀ p ∈ pts, 0 ≤ ρ p := fun p hp => (hr p hp).nonneg
  have f0 : ∀ p ∈ pts, 0 ≤ φ p := fun p hp => (hf p hp).nonneg
  have ok : ∀ z : ℝ, OkRange z → (z = 0 ∨ (2 : ℝ) ^ (-30 : ℤ) ≤ z) ∧ z ≤ (2 : ℝ) ^ (30 : ℤ) := fun z hz => by
    rcases hz with h | h
    · exact ⟨.inl h, by rw [h]; positivity⟩
    · exact ⟨.inr h.1, h.2⟩
  have hV := spread hs0.le (pts.map ρ) hp
  rw [List.length_map, List.map_map, ← hNd] at hV
  change _ ≤ (N : ℝ) * (pts.map (fun p => ρ p * ρ p)).sum - _ at hV
  have hXz := sum_zero_or (lo := (2 : ℝ) ^ (-30 : ℤ)) (by positivity) (pts.map ρ) (fun z hz => by
    obtain ⟨p, hp, rfl⟩ := List.mem_map.mp hz; exact (ok _ (hr p hp)).1)
  have hYz := sum_zero_or (lo := (2 : ℝ) ^ (-30 : ℤ)) (by positivity) (pts.map φ) (fun z hz => by
    obtain ⟨p, hp, rfl⟩ := List.mem_map.mp hz; exact (ok _ (hf p hp)).1)
  have hprod : ∀ a b : ℝ, OkRange a → OkRange b → a * b = 0 ∨ (2 : ℝ) ^ (-60 : ℤ) ≤ a * b := fun a b ha hb => by
    rcases (ok a ha).1 with h | h
    · left; rw [h, zero_mul]
    · rcases (ok b hb).1 with h' | h'
      · left; rw [h', mul_zero]
      · right
        calc (2 : ℝ) ^ (-60 : ℤ) = 2 ^ (-30 : ℤ) * 2 ^ (-30 : ℤ) := by norm_num
          _ ≤ _ := mul_le_mul h h' (by positivity) ha.nonneg
  have hQz := sum_zero_or (lo := (2 : ℝ) ^ (-60 : ℤ)) (by positivity) (pts.map (fun p => ρ p * ρ p)) (fun z hz => by
    obtain ⟨p, hp, rfl⟩ := List.mem_map.mp hz; exact hprod _ _ (hr p hp) (hr p hp))
  have hPz := sum_zero_or (lo := (2 : ℝ) ^ (-60 : ℤ)) (by positivity) (pts.map (fun p => ρ p * φ p)) (fun z hz => by
    obtain ⟨p, hp, rfl⟩ := List.mem_map.mp hz; exact hprod _ _ (hr p hp) (hf p hp))
  -- upper bounds
  have hXH : (pts.map ρ).sum ≤ N * H := (sum_le_of pts ρ (fun _ => H) hH).trans (sum_const pts H).le
  have hYΦ : (pts.map φ).sum ≤ N * Φ := (sum_le_of pts φ (fun _ => Φ) hΦ).trans (sum_const pts Φ).le
  have hY30 : (pts.map φ).sum ≤ N * 2 ^ (30 : ℤ) :=
    (sum_le_of pts φ (fun _ => (2 : ℝ) ^ (30 : ℤ)) (fun p hp => (ok _ (hf p hp)).2)).trans (sum_const pts _).le
  have hPH : (pts.map (fun p => ρ p * φ p)).sum ≤ N * (H * Φ) :=
    (sum_le_of pts _ (fun _ => H * Φ) (fun p hp => mul_le_mul (hH p hp) (hΦ p hp) (f0 p hp) ((r0 p hp).trans (hH p hp)))).trans (sum_const pts _).le
  have hQH : (pts.map (fun p => ρ p * ρ p)).sum ≤ N * (H * H) :=
    (sum_le_of pts _ (fun _ => H * H) (fun p hp => mul_le_mul (hH p hp) (hH p hp) (r0 p hp) ((r0 p hp).trans (hH p hp)))).trans (sum_const pts _).le
  have hQ60 : (pts.map (fun p => ρ p * ρ p)).sum ≤ N * 2 ^ (60 : ℤ) :=
    (sum_le_of pts _ (fun _ => (2 : ℝ) ^ (60 : ℤ)) (fun p hp => by
      calc ρ p * ρ p ≤ 2 ^ (30 : ℤ) * 2 ^ (30 : ℤ) := mul_le_mul (ok _ (hr p hp)).2 (ok _ (hr p hp)).2 (r0 p hp) (by positivity)
        _ = 2 ^ (60 : ℤ) := by norm_num)).trans (sum_const pts _).le
  have hP60 : (pts.map (fun p => ρ p * φ p)).sum ≤ N * 2 ^ (60 : ℤ) :=
    (sum_le_of pts _ (fun _ => (2 : ℝ) ^ (60 : ℤ)) (fun p hp => by
      calc ρ p * φ p ≤ 2 ^ (30 : ℤ) * 2 ^ (30 : ℤ) := mul_le_mul (ok _ (hr p hp)).2 (ok _ (hf p hp)).2 (f0 p hp) (by positivity)
        _ = 2 ^ (60 : ℤ) := by norm_num)).trans (sum_const pts _).le
  have hxq : ∀ p ∈ pts, ρ p ≤ 2 ^ (30 : ℤ) * (ρ p * ρ p) := fun p hp => by
    rcases (ok _ (hr p hp)).1 with h | h
    · rw [h]; simp
    · have h1 : (1 : ℝ) ≤ 2 ^ (30 : ℤ) * ρ p := by
        calc (1 : ℝ) = 2 ^ (30 : ℤ) * 2 ^ (-30 : ℤ) := by norm_num
          _ ≤ _ := mul_le_mul_of_nonneg_left h (by positivity)
      have := mul_le_mul_of_nonneg_right h1 (r0 p hp)
      linarith
  have hXQ30 : (pts.map ρ).sum ≤ 2 ^ (30 : ℤ) * (pts.map (fun p => ρ p * ρ p)).sum :=
    (sum_le_of pts ρ _ hxq).trans (sum_scale pts _ _).le
  have hPQ60 : (pts.map (fun p => ρ p * φ p)).sum ≤ 2 ^ (60 : ℤ) * (pts.map (fun p => ρ p * ρ p)).sum :=
    (sum_le_of pts _ _ (fun p hp => by
      calc ρ p * φ p ≤ (2 ^ (30 : ℤ) * (ρ p * ρ p)) * 2 ^ (30 : ℤ) := mul_le_mul (hxq p hp) (ok _ (hf p hp)).2 (f0 p hp)
            (mul_nonneg (by positivity) (mul_nonneg (r0 p hp) (r0 p hp)))
        _ = 2 ^ (60 : ℤ) * (ρ p * ρ p) := by norm_num; ring)).trans (sum_scale pts _ _).le
  have hslope : slopeR (pts.map (fun p => (ρ p, φ p))) = (N * (pts.map (fun p => ρ p * φ p)).sum - (pts.map ρ).sum * (pts.map φ).sum) /
      (N * (pts.map (fun p => ρ p * ρ p)).sum - (pts.map ρ).sum ^ 2) := by
    unfold slopeR detR
    simp only [List.length_map, List.map_map, ← hNd]
    rfl
  rw [hslope]
  have hH0 : 0 ≤ H := by
    obtain ⟨p, hp⟩ : ∃ p, p ∈ pts := List.exists_mem_of_length_pos (by omega)
    exact (r0 p hp).trans (hH p hp)
  have hΦ0 : 0 ≤ Φ := by
    obtain ⟨p, hp⟩ : ∃ p, p ∈ pts := List.exists_mem_of_length_pos (by omega)
    exact (f0 p hp).trans (hΦ p hp)
  generalize (pts.map ρ).sum = X at *
  generalize (pts.map φ).sum = Y at *
  generalize (pts.map (fun p => ρ p * ρ p)).sum = Q at *
  generalize (pts.map (fun p => ρ p * φ p)).sum = P at *
  have hN' : (N : ℝ) ≤ 100000 := by exact_mod_cast hN2
  have hN2' : (2 : ℝ) ≤ N := by exact_mod_cast hN
  have hNN : (0 : ℝ) < N ^ 2 - 1 := by nlinarith
  have hS : 0 < s ^ 2 * ((N : ℝ) ^ 2 * (N ^ 2 - 1) / 12) := by
    have : (0 : ℝ) < N := by linarith
    positivity
  obtain ⟨hX1, hX0⟩ := hXz
  obtain ⟨hY1, hY0⟩ := hYz
  obtain ⟨hQ1, hQ0⟩ := hQz
  obtain ⟨hP1, hP0⟩ := hPz
  have hVpos : 0 < N * Q - X ^ 2 := by linarith
  have hQlow : (2 : ℝ) ^ (-60 : ℤ) ≤ Q := by
    rcases hQ1 with h | h
    · rw [h] at hVpos; nlinarith [sq_nonneg X]
    · exact h
  have hXX : X * X ≤ N * Q := by rw [← pow_two]; linarith
  have hNQ : N * Q ≤ (2 : ℝ) ^ (96 : ℤ) := by
    calc N * Q ≤ 100000 * (100000 * (2 : ℝ) ^ (60 : ℤ)) := by
          refine mul_le_mul hN' (hQ60.trans ?_) hQ0 (by norm_num)
          gcongr
      _ ≤ _ := by norm_num
  have hNQlow : (2 : ℝ) ^ (-60 : ℤ) ≤ N * Q := by
    have := mul_le_mul_of_nonneg_right (show (1 : ℝ) ≤ N by linarith) hQ0
    linarith
  -- the four products
  obtain ⟨A, eA, nA⟩ := near_round ((Near.refl (N : ℝ)).mul nq (by positivity) hQ0) (by omega) (.inr (le_trans (by norm_num) hNQlow))
    (hNQ.trans (by norm_num))
  have prodX : ∀ z : ℝ, 0 ≤ z → (z = 0 ∨ (2 : ℝ) ^ (-30 : ℤ) ≤ z) → X * z = 0 ∨ (2 : ℝ) ^ (-60 : ℤ) ≤ X * z := fun z hz hz1 => by
    rcases hX1 with h | h
    · left; rw [h, zero_mul]
    · rcases hz1 with h' | h'
      · left; rw [h', mul_zero]
      · right
        calc (2 : ℝ) ^ (-60 : ℤ) = 2 ^ (-30 : ℤ) * 2 ^ (-30 : ℤ) := by norm_num
          _ ≤ _ := mul_le_mul h h' (by positivity) hX0
  have hXY60 : X * Y ≤ 2 ^ (60 : ℤ) * (N * Q) := by
    calc X * Y ≤ (2 ^ (30 : ℤ) * Q) * (N * 2 ^ (30 : ℤ)) := mul_le_mul hXQ30 hY30 hY0 (by positivity)
      _ = _ := by norm_num; ring
  have hNP60 : N * P ≤ 2 ^ (60 : ℤ) * (N * Q) := by
    have := mul_le_mul_of_nonneg_left hPQ60 (by positivity : (0 : ℝ) ≤ N)
    linarith
  have hX47 : X ≤ 100000 * 2 ^ (30 : ℤ) := by
    have : X * X ≤ (100000 * 2 ^ (30 : ℤ)) * (100000 * 2 ^ (30 : ℤ)) := by
      calc X * X ≤ N * Q := hXX
        _ ≤ 100000 * (100000 * (2 : ℝ) ^ (60 : ℤ)) := by
          refine mul_le_mul hN' (hQ60.trans ?_) hQ0 (by norm_num)
          gcongr
        _ = _ := by norm_num
    exact le_of_not_gt fun h => absurd this (not_le.mpr (mul_lt_mul'' h h (by positivity) (by positivity)))
  have hXY : X * Y ≤ (2 : ℝ) ^ (96 : ℤ) := by
    calc X * Y ≤ (100000 * 2 ^ (30 : ℤ)) * (100000 * 2 ^ (30 : ℤ)) := by
          refine mul_le_mul hX47 (hY30.trans ?_) hY0 (by positivity)
          gcongr
      _ ≤ _ := by norm_num
  have hNP : N * P ≤ (2 : ℝ) ^ (96 : ℤ) := by
    calc N * P ≤ 100000 * (100000 * (2 : ℝ) ^ (60 : ℤ)) := by
          refine mul_le_mul hN' (hP60.trans ?_) hP0 (by norm_num)
          gcongr
      _ ≤ _ := by norm_num
  have hNP1 : N * P = 0 ∨ (2 : ℝ) ^ (-60 : ℤ) ≤ N * P := by
    rcases hP1 with h | h
    · left; rw [h, mul_zero]
    · right
      have := mul_le_mul_of_nonneg_right (show (1 : ℝ) ≤ N by linarith) hP0
      linarith
  obtain ⟨B, eB, nB⟩ := near_round (nx.mul nx hX0 hX0) (by omega) ((prodX X hX0 hX1).imp_right (le_trans (by norm_num)))
    (hXX.trans (hNQ.trans (by norm_num)))
  obtain ⟨A', eA', nA'⟩ := near_round ((Near.refl (N : ℝ)).mul nu (by positivity) hP0) (by omega) (hNP1.imp_right (le_trans (by norm_num)))
    (hNP.trans (by norm_num))
  obtain ⟨B', eB', nB'⟩ := near_round (nx.mul ny hX0 hY0) (by omega) ((prodX Y hY0 hY1).imp_right (le_trans (by norm_num)))
    (hXY.trans (by norm_num))
  rw [show 0 + (N + 1) + 1 = N + 2 by ring] at nA nA'
  rw [show N + N + 1 = 2 * N + 1 by ring] at nB nB'
  -- numerator and determinant
  obtain ⟨det, edet, hdet⟩ := diff_err hN2 (by positivity) (mul_nonneg hX0 hX0) (le_refl (N * Q)) hXX (hNQ.trans (by norm_num))
    (.inr (le_trans (by norm_num) hNQlow)) nA nB
  set G := max (N * P) (X * Y) with hGd
  have hG0 : 0 ≤ G := le_trans (by positivity) (le_max_left _ _)
  have hGlow : G = 0 ∨ (2 : ℝ) ^ (-70 : ℤ) ≤ G := by
    rcases max_choice (N * P) (X * Y) with h | h <;> rw [hGd, h]
    · exact hNP1.imp_right (le_trans (by norm_num))
    · exact (prodX Y hY0 hY1).imp_right (le_trans (by norm_num))
  obtain ⟨num, enum, hnum⟩ := diff_err hN2 (mul_nonneg (by positivity) hP0) (mul_nonneg hX0 hY0) (le_max_left _ _) (le_max_right _ _)
    (max_le (hNP.trans (by norm_num)) (hXY.trans (by norm_num))) hGlow nA' nB'
  rw [← hGd] at hnum
  have dpos := δ0
  have hG60 : G ≤ 2 ^ (60 : ℤ) * (N * Q) := max_le hNP60 hXY60
  have hc0 : 0 ≤ (3.06 * (N : ℝ) + 5) * δ := by positivity
  have hc2 : (3.06 * (N : ℝ) + 5) * δ ≤ 0.02 := by unfold δ; linarith
  have hcK : 2 * ((3.06 * (N : ℝ) + 5) * δ * (N * Q)) ≤ N * Q - X ^ 2 := by
    refine le_trans ?_ hV
    unfold Resolved2 at hres
    have h1 : (N : ℝ) * Q ≤ N * (N * (H * H)) := mul_le_mul_of_nonneg_left hQH (by positivity)
    have h2 : 2 * ((3.06 * (N : ℝ) + 5) * δ * (N * Q)) ≤ 2 * ((3.06 * (N : ℝ) + 5) * δ * (N * (N * (H * H)))) := by gcongr
    refine h2.trans ?_
    have h3 := mul_le_mul_of_nonneg_left hres (sq_nonneg (N : ℝ))
    have h4 : 0 ≤ (N : ℝ) ^ 2 * H ^ 2 := by positivity
    have h5 : 0 ≤ (N : ℝ) ^ 2 * H ^ 2 * N := by positivity
    unfold δ
    nlinarith
  rw [pow_two X] at hVpos hcK hV ⊢
  have hVK : N * Q - X * X ≤ N * Q := by have := mul_nonneg hX0 hX0; linarith
  obtain ⟨hdpos, hq⟩ := quot_err hVpos hVK hnum hdet hcK
  -- size
  have hW : |N * P - X * Y| ≤ G := by
    rw [abs_le]
    have h1 := le_max_left ((N : ℝ) * P) (X * Y)
    have h2 := le_max_right ((N : ℝ) * P) (X * Y)
    have h3 : 0 ≤ N * P := by positivity
    have h4 : 0 ≤ X * Y := mul_nonneg hX0 hY0
    constructor <;> linarith
  set c := (3.06 * (N : ℝ) + 5) * δ with hcd
  have hclow : (2 : ℝ) ^ (-21 : ℤ) ≤ c := by
    rw [hcd]; unfold δ
    norm_num
    linarith
  set m := (N * P - X * Y) / (N * Q - X * X) with hmd
  have hm80 : |m| ≤ 2 ^ (80 : ℤ) := by
    rw [hmd, abs_div, abs_of_pos hVpos, div_le_iff₀ hVpos]
    calc |N * P - X * Y| ≤ 2 ^ (60 : ℤ) * (N * Q) := hW.trans hG60
      _ = 2 ^ (80 : ℤ) * (2 * (2 ^ (-21 : ℤ) * (N * Q))) := by norm_num; ring
      _ ≤ 2 ^ (80 : ℤ) * (2 * (c * (N * Q))) := by gcongr
      _ ≤ _ := by gcongr
  have htm : |num / det - m| ≤ 2 ^ (81 : ℤ) := by
    refine hq.trans ?_
    rw [div_le_iff₀ hVpos]
    calc 2 * c * (G + |m| * (N * Q)) ≤ 2 * c * (2 ^ (60 : ℤ) * (N * Q) + 2 ^ (80 : ℤ) * (N * Q)) := by gcongr
      _ = (2 ^ (60 : ℤ) + 2 ^ (80 : ℤ)) * (2 * (c * (N * Q))) := by ring
      _ ≤ 2 ^ (81 : ℤ) * (2 * (c * (N * Q))) := by
        refine mul_le_mul_of_nonneg_right (by norm_num) (by positivity)
      _ ≤ _ := by gcongr
  have htsz : |num / det| ≤ (2 : ℝ) ^ (90 : ℤ) := by
    have := abs_sub_abs_le_abs_sub (num / det) m
    have e : (2 : ℝ) ^ (80 : ℤ) + 2 ^ (81 : ℤ) ≤ 2 ^ (90 : ℤ) := by norm_num
    linarith
  obtain ⟨v, w, ev, ew, hwm⟩ := half_err hVpos hVK hG0 hc0 hc2 hq htsz
  -- the program
  have eT : val r.total = .fin (N : ℝ) := by rw [t]; exact hT
  have e2 : val (2 : Binary64) = .fin 2 := voflit 2 (by norm_num)
  have epow : val (r.x ^ (2 : Binary64)) = rnd Binary64 (.fin (x * x)) := by
    show Bin.value _ (Bin.pow _ r.x 2) = _
    rw [Bin.value_pow]
    show double.round (XR.pow (val r.x) (val (2 : Binary64))) = _
    rw [ex, e2]
    show double.round (XR.fin x ^ XR.fin 2) = _
    rw [show (XR.fin 2 : XR) = (2 : XR) by rw [XR.foflit], fpow_two, pow_two]; rfl
  have hdetv : val (lseDet r) = .fin det := by
    unfold lseDet
    rw [val_f32, vsub, val_f32, val_f32, vmul, eT, eq, XR.fmul, eA, epow, eB, XR.fsub, edet]
  have hnumv : val (f32 (f32 (r.total * r.xy) - f32 (r.x * r.y))) = .fin num := by
    rw [val_f32, vsub, val_f32, val_f32, vmul, vmul, eT, eu, ex, ey, XR.fmul, XR.fmul, eA', eB', XR.fsub, enum]
  have hsl : val (f32 (f32 (f32 (r.total * r.xy) - f32 (r.x * r.y)) / lseDet r)) = .fin v := by
    rw [val_f32, vdiv _ _ (by rw [hdetv]; simpa using hdpos.ne'), hnumv, hdetv, XR.fdiv hdpos.ne', ev]
  have call : lse cython bad pts = .ok (f32 (f32 (f32 (r.total * r.xy) - f32 (r.x * r.y)) / lseDet r),
      f32 (f32 (f32 (r.y * r.xx) - f32 (r.x * r.xy)) / lseDet r)) := by
    unfold lse
    dsimp only
    rw [hsum]
    have : (lseDet r ==. (0 : Binary64)) = false := by
      have h0 : val (0 : Binary64) = .fin 0 := by
        show val (PyFloat.lit _ : Binary64) = _
        rw [val_lit]
        norm_num
        exact rnd_simple simple_zero
      rw [val_eq, h0, hdetv]
      simp only [XR.eq, decide_eq_false_iff_not]
      exact hdpos.ne'
    rw [this, Bool.and_false]
    rfl
  refine ⟨_, _, w, call, ?_, ?_⟩
  · have h5 : val (0.5 : Binary64) = .fin 0.5 := by
      show val (PyFloat.lit _ : Binary64) = _
      rw [val_lit, show (((OfScientific.ofScientific 5 true 1 : ℚ)) : ℝ) = 0.5 by norm_num]
      exact rnd_simple ⟨1, -1, by norm_num, by norm_num, by norm_num⟩
    rw [val_f32, vmul, h5, hsl, XR.fmul, ew]
  · refine hwm.trans (add_le_add ?_ (le_refl _))
    rw [← mul_div_assoc, div_le_div_iff₀ hVpos (by positivity)]
    have hGH : G ≤ N * (N * (H * Φ)) := max_le (by gcongr) (by
      calc X * Y ≤ (N * H) * (N * Φ) := mul_le_mul hXH hYΦ hY0 (by positivity)
        _ = _ := by ring)
    have hKH : N * Q ≤ N * (N * (H * H)) := by gcongr
    have hE : G + |m| * (N * Q) ≤ N ^ 2 * (H * (Φ + |m| * H)) := by
      have : |m| * (N * Q) ≤ |m| * (N * (N * (H * H))) := by gcongr
      linarith
    have hE0 : 0 ≤ G + |m| * (N * Q) := by positivity
    have hc3 : (c + 2 * δ) ≤ (3.1 * N + 7) * δ := by rw [hcd]; nlinarith
    calc (c + 2 * δ) * (G + |m| * (N * Q)) * (16000000 * (s ^ 2 * (N ^ 2 - 1)))
        ≤ ((3.1 * N + 7) * δ) * (N ^ 2 * (H * (Φ + |m| * H))) * (16000000 * (s ^ 2 * (N ^ 2 - 1))) := by
          gcongr
      _ = 12 * (3.1 * N + 7) * H * (Φ + |m| * H) * (s ^ 2 * (N ^ 2 * (N ^ 2 - 1) / 12)) := by unfold δ; ring
      _ ≤ _ := by
        refine mul_le_mul_of_nonneg_left ?_ (by positivity)
        exact hV
end Fp

/-! ## C148 -/
section c148
open Ieee IeeeFloat Fp

/-- the width of the KDP window for a reflectivity, in terms of half the filter order -/
def Width64 (R : Ray Binary64) (d : Binary64) (w : ℕ) : Prop :=
  ∃ z : ℝ, IeeeFloat.val d = .fin z ∧ ((45 ≤ z ∧ w = R.half) ∨ (35 ≤ z ∧ z < 45 ∧ w = 2 * R.half) ∨ (z < 35 ∧ w = 3 * R.half))

theorem nadp_width64 {R : Ray Binary64} {d : Binary64} {w : ℕ} (h : Width64 R d w) (m : Int) : nadpOf R d m = (w : Int) := by
  obtain ⟨z, hz, h⟩ := h
  have c45 : IeeeFloat.val (45.0 : Binary64) = .fin 45 := by
    show IeeeFloat.val (PyFloat.lit _ : Binary64) = _
    rw [val_lit, show (((OfScientific.ofScientific 450 true 1 : ℚ)) : ℝ) = 45 by norm_num]
    exact rnd_simple (simple_nat 45 (by norm_num))
  have c35 : IeeeFloat.val (35.0 : Binary64) = .fin 35 := by
    show IeeeFloat.val (PyFloat.lit _ : Binary64) = _
    rw [val_lit, show (((OfScientific.ofScientific 350 true 1 : ℚ)) : ℝ) = 35 by norm_num]
    exact rnd_simple (simple_nat 35 (by norm_num))
  have e1 : (d >=. 35.0) = decide (35 ≤ z) := by
    show PyFloat.le (35.0 : Binary64) d = _
    rw [val_le, c35, hz]; rfl
  have e2 : (d <. 45.0) = decide (z < 45) := by rw [val_lt, c45, hz]; rfl
  have e3 : (d >=. 45.0) = decide (45 ≤ z) := by
    show PyFloat.le (45.0 : Binary64) d = _
    rw [val_le, c45, hz]; rfl
  have e4 : (d <. 35.0) = decide (z < 35) := by rw [val_lt, c35, hz]; rfl
  unfold nadpOf
  dsimp only
  rw [e1, e2, e3, e4]
  rcases h with ⟨h1, rfl⟩ | ⟨h1, h2, rfl⟩ | ⟨h1, rfl⟩
  · have h2 : ¬ z < 45 := not_lt.mpr h1
    have h3 : ¬ z < 35 := by linarith
    simp [h1, h2, h3]
  · have h3 : ¬ z < 35 := not_lt.mpr h1
    simp [h1, h2, h3]
  · simp [h1]

/-- the gates `lo`, ..., `lo + len - 1` whose filtered phase is good -/
noncomputable def goodGates (R : Ray Binary64) (out : RayOut Binary64) (lo len : ℕ) : List ℕ :=
  ((List.range len).map (fun k => lo + k)).filter (fun j => out.dp.getD j PyFloat.nan !=. R.bad)

/-- `0.8 * w`, rounded, is at most `0.8001 w` -/
theorem eighty_up {w N : ℕ} (hw : w ≤ 300000) (hN : N ≤ 300000) (hN0 : 0 < N) (h : (0.8001 : ℝ) * w ≤ N) :
    ((cython : Dialect Binary64).w (PyFloat.ofNat N) >. (cython : Dialect Binary64).w ((cython : Dialect Binary64).w (0.8 : Binary64) *
      (cython : Dialect Binary64).w (PyFloat.ofNat w))) = true := by
  have hs : ∀ m : ℕ, m ≤ 300000 → Simple (m : ℝ) := fun m hm => by
    have := simple_int (m : ℤ) (by rw [abs_of_nonneg (by omega)]; have : m ≤ 2 ^ 24 := hm.trans (by norm_num)
                                   exact_mod_cast this)
    simpa using this
  show ((0.8 : Binary64) * PyFloat.ofNat w <. PyFloat.ofNat N) = true
  have h8 : ∃ c : ℝ, IeeeFloat.val (0.8 : Binary64) = .fin c ∧ c ≤ (1 + δ) * 0.8 ∧ (1 - δ) * 0.8 ≤ c := by
    show ∃ c : ℝ, IeeeFloat.val (PyFloat.lit _ : Binary64) = _ ∧ _
    rw [val_lit]
    obtain ⟨v, a, b, c⟩ := round64 (e := 0.8) (by norm_num) (by norm_num)
    refine ⟨v, ?_, c, b⟩
    rw [← a]; norm_num
  obtain ⟨c, hc, hcu, hcl⟩ := h8
  rw [val_lt, vnat, rnd_simple (hs N hN), vmul, hc, vnat, rnd_simple (hs w hw), XR.fmul]
  have hN1 : (1 : ℝ) ≤ N := by exact_mod_cast hN0
  have dpos := δ0
  have dsm : δ ≤ 0.0000001 := by unfold δ; norm_num
  rcases Nat.eq_zero_or_pos w with rfl | hw0
  · rw [Nat.cast_zero, mul_zero, rnd_simple simple_zero]
    simp only [XR.lt, decide_eq_true_eq]; linarith
  · have hw1 : (1 : ℝ) ≤ w := by exact_mod_cast hw0
    have hw2 : (w : ℝ) ≤ 300000 := by exact_mod_cast hw
    obtain ⟨v, a, b, d⟩ := round64 (e := c * w) (by
        have : (0.5 : ℝ) ≤ c * w := by nlinarith
        exact le_trans (by norm_num) this) (by
        have : c * w ≤ 300000 := by nlinarith
        exact this.trans (by norm_num))
    rw [a]
    simp only [XR.lt, decide_eq_true_eq]
    have h1 : c * w ≤ 0.80001 * w := by nlinarith
    have h2 : v ≤ 0.80002 * w := by nlinarith
    linarith

theorem filter_gates {R : Ray Binary64} {out : RayOut Binary64} {z : Buf Binary64} (hl : out.dp.length = R.n)
    (hz : ∀ (i : Nat) (h : i < out.dp.length), out.dp[i] = z.mem i) {i h : ℕ} (h0 : h ≤ i) (h1 : i + h < R.n) :
    (rangeI ((i : Int) - h) (i + h + (cython : Dialect Binary64).winEnd)).filter (fun j => z.mem j !=. R.bad) =
      (goodGates R out (i - h) (2 * h)).map (fun j : ℕ => (j : Int)) := by
  unfold goodGates
  have e : rangeI ((i : Int) - h) (i + h + (cython : Dialect Binary64).winEnd) = ((List.range (2 * h)).map (fun k => i - h + k)).map (fun j : ℕ => (j : Int)) := by
    unfold rangeI
    rw [show (((i : Int) + h + (cython : Dialect Binary64).winEnd) - ((i : Int) - h)).toNat = 2 * h by simp only [cython]; omega, List.map_map]
    apply List.map_congr_left
    intro k _
    simp only [Function.comp_apply, Int.ofNat_eq_natCast]; omega
  rw [e, List.filter_map]
  congr 1
  apply List.filter_congr
  intro j hj
  obtain ⟨k, hk, rfl⟩ := List.mem_map.mp hj
  have hk := List.mem_range.mp hk
  have hlt : i - h + k < out.dp.length := by omega
  simp only [Function.comp_apply]
  rw [← hz _ hlt, List.getD_eq_getElem?_getD, List.getElem?_eq_getElem hlt]; rfl

/-- **C148 (partial).**  In IEEE double precision with float32 stores, the KDP of the Cython kernel at gate `i` is half the slope of the least-squares
line through the good filtered phases of the window of `i`, up to
`12 (3.1 N + 7) H (Φ + |slope| H) / (1.6·10⁷ s² (N² - 1)) + 2^-99`,
where `N` is the number of good phases, which lie between 0 and `Φ`, `H` bounds the ranges and `s` the gate spacing; the ranges must be resolved. -/
theorem C148_slope_error_partial (R : Ray Binary64) (ρ : Int → ℝ) (s H : ℝ) (h : Ranges64 R ρ s H) (ho : R.order ≤ 60000)
    (out : RayOut Binary64) (e : calcKdpRayFir cython false R = .ok out) (i : ℕ) (w : ℕ) (hb : (R.dz.mem i !=. R.bad) = true)
    (hw : Width64 R (R.dz.mem i) w) (h0 : w / 2 ≤ i) (h1 : i + w / 2 < R.n)
    (φ : ℕ → ℝ) (Φ : ℝ) (hφ : ∀ j ∈ goodGates R out (i - w / 2) (2 * (w / 2)), IeeeFloat.val (out.dp.getD j PyFloat.nan) = .fin (φ j) ∧ OkRange (φ j) ∧ φ j ≤ Φ)
    (N : ℕ) (hN : (goodGates R out (i - w / 2) (2 * (w / 2))).length = N) (hN2 : 2 ≤ N) (h8 : (0.8001 : ℝ) * w ≤ N) (hres : Resolved2 N s H) :
    ∃ (v : Binary64) (k a b : ℝ), out.kd[i]? = some v ∧ IeeeFloat.val v = .fin k ∧
      IsLeastSquares ((goodGates R out (i - w / 2) (2 * (w / 2))).map (fun j : ℕ => (ρ j, φ j))) a b ∧
      |k - a / 2| ≤ 12 * (3.1 * N + 7) * H * (Φ + |a| * H) / (16000000 * (s ^ 2 * (N ^ 2 - 1))) + 2 ^ (-99 : ℤ) := by
  obtain ⟨yz, r⟩ := calc_run e
  have hk : i < out.kd.length := by rw [r.kdLen]; omega
  obtain ⟨m1, m2, g⟩ := r.kd i hk
  have hw3 : w ≤ 3 * R.half := by
    obtain ⟨z, -, h⟩ := hw; omega
  have hhalf : R.half ≤ 30000 := by unfold Ray.half; omega
  unfold kdpGate at g
  obtain ⟨d, hd, g⟩ := bind_ok g
  have hdv := rd_val hd
  subst hdv
  rw [if_pos hb] at g
  dsimp only at g
  rw [nadp_width64 hw, show ((w : Int) / 2) = ((w / 2 : ℕ) : Int) by omega, if_pos (by omega)] at g
  obtain ⟨pts, hp, g⟩ := bind_ok g
  have hv := kdpCollect_val hp
  rw [filter_gates r.dpLen r.dp h0 h1, List.map_map] at hv
  set gs := goodGates R out (i - w / 2) (2 * (w / 2)) with hgs
  have hlen : pts.length = N := by rw [hv, List.length_map, hN]
  have hNle : N ≤ 2 * (w / 2) := by
    rw [← hN, hgs]; unfold goodGates
    refine (List.length_filter_le _ _).trans ?_
    simp
  rw [if_pos (by rw [hlen]; exact eighty_up (by omega) (by omega) (by omega) h8)] at g
  have hmem : ∀ j ∈ gs, (0 : Int) ≤ (j : Int) ∧ (j : Int) < R.n ∧ (yz.2.mem j !=. R.bad) = true ∧ yz.2.mem j = out.dp.getD j PyFloat.nan := fun j hj => by
    obtain ⟨hj1, hj2⟩ := List.mem_filter.mp hj
    obtain ⟨k, hk, rfl⟩ := List.mem_map.mp hj1
    have hk := List.mem_range.mp hk
    have hlt : i - w / 2 + k < out.dp.length := by rw [r.dpLen]; omega
    have e1 : yz.2.mem ((i - w / 2 + k : ℕ) : Int) = out.dp.getD (i - w / 2 + k) PyFloat.nan := by
      rw [← r.dp _ hlt, List.getD_eq_getElem?_getD, List.getElem?_eq_getElem hlt]; rfl
    exact ⟨by omega, by omega, by rw [e1]; exact hj2, e1⟩
  let ρ' : Binary64 × Binary64 → ℝ := fun p => match IeeeFloat.val p.1 with | .fin x => x | _ => 0
  let φ' : Binary64 × Binary64 → ℝ := fun p => match IeeeFloat.val p.2 with | .fin x => x | _ => 0
  have hρ : ∀ j ∈ gs, ρ' (R.rng.mem j, yz.2.mem j) = ρ j := fun j hj => by
    have := hmem j hj
    show (match IeeeFloat.val (R.rng.mem j) with | .fin x => x | _ => 0) = _
    rw [(h.val j this.1 this.2.1).1]
  have hφ' : ∀ j ∈ gs, φ' (R.rng.mem j, yz.2.mem j) = φ j := fun j hj => by
    have := hmem j hj
    show (match IeeeFloat.val (yz.2.mem j) with | .fin x => x | _ => 0) = _
    rw [this.2.2.2, (hφ j hj).1]
  have hpt : ∀ p ∈ pts, ∃ j ∈ gs, p = (R.rng.mem j, yz.2.mem j) := fun p hp => by
    rw [hv] at hp
    obtain ⟨j, hj, rfl⟩ := List.mem_map.mp hp
    exact ⟨j, hj, rfl⟩
  have hsorted : gs.Pairwise (· < ·) := by
    rw [hgs]; unfold goodGates
    refine List.Pairwise.filter _ ?_
    rw [List.pairwise_map]
    exact List.Pairwise.imp (fun {a b} hab => by omega) List.pairwise_lt_range
  have hpair : (pts.map ρ').Pairwise (fun a b => a + s ≤ b) := by
    have em : pts.map ρ' = gs.map (fun j : ℕ => ρ j) := by
      rw [hv, List.map_map]
      exact List.map_congr_left (fun j hj => hρ j hj)
    rw [em, List.pairwise_map]
    refine (List.Pairwise.and_mem.mp hsorted).imp (fun {a b} hab => ?_)
    obtain ⟨ha, hb, hab⟩ := hab
    exact h.gap a b (hmem a ha).1 (by omega) (hmem b hb).2.1
  obtain ⟨a, b, k, hl, hkv, herr⟩ := lse_err R.bad pts ρ' φ' s H Φ h.pos (by omega) (by omega)
    (fun p hp => by
      obtain ⟨j, hj, rfl⟩ := hpt p hp
      rw [hρ j hj]; exact (h.val j (hmem j hj).1 (hmem j hj).2.1).1)
    (fun p hp => by
      obtain ⟨j, hj, rfl⟩ := hpt p hp
      rw [hρ j hj]; exact (h.val j (hmem j hj).1 (hmem j hj).2.1).2.1)
    (fun p hp => by
      obtain ⟨j, hj, rfl⟩ := hpt p hp
      rw [hρ j hj]; exact (h.val j (hmem j hj).1 (hmem j hj).2.1).2.2.1)
    (fun p hp => by
      obtain ⟨j, hj, rfl⟩ := hpt p hp
      rw [hφ' j hj]
      show IeeeFloat.val (yz.2.mem j) = _
      rw [(hmem j hj).2.2.2]; exact (hφ j hj).1)
    (fun p hp => by
      obtain ⟨j, hj, rfl⟩ := hpt p hp
      rw [hφ' j hj]; exact (hφ j hj).2.1)
    (fun p hp => by
      obtain ⟨j, hj, rfl⟩ := hpt p hp
      rw [hφ' j hj]; exact (hφ j hj).2.2)
    (fun p hp => by
      obtain ⟨j, hj, rfl⟩ := hpt p hp
      have h1 := (h.val j (hmem j hj).1 (hmem j hj).2.1).2.2.2
      have h2 := (hmem j hj).2.2.1
      simp only [PyFloat.ne, Bool.not_eq_true'] at h1 h2
      exact ⟨h1, h2⟩)
    hpair (by rw [hlen]; exact hres)
  have hgl : pts.map (fun p => (ρ' p, φ' p)) = gs.map (fun j : ℕ => (ρ j, φ j)) := by
    rw [hv, List.map_map]
    apply List.map_congr_left
    intro j hj
    show (ρ' (R.rng.mem j, yz.2.mem j), φ' (R.rng.mem j, yz.2.mem j)) = _
    rw [hρ j hj, hφ' j hj]
  rw [hgl, hlen] at herr
  rw [hl] at g
  injection g with g; injection g with g1 g2
  refine ⟨out.kd[i], k, _, _, List.getElem?_eq_getElem hk, by rw [← g1]; exact hkv, least_squares _ ?_, herr.trans (add_le_add (le_refl _) ?_)⟩
  · obtain ⟨j1, j2, l, hab⟩ : ∃ a b l, gs = a :: b :: l := by
      match hm : gs, hN with
      | a :: b :: l, _ => exact ⟨a, b, l, rfl⟩
      | [_], hN => simp at hN; omega
      | [], hN => simp at hN; omega
    have hs1 : j1 ∈ gs := by rw [hab]; simp
    have hs2 : j2 ∈ gs := by rw [hab]; simp
    have hlt : j1 < j2 := by
      rw [hab] at hsorted
      exact (List.pairwise_cons.mp hsorted).1 j2 (by simp)
    refine ⟨_, List.mem_map.mpr ⟨j1, hs1, rfl⟩, _, List.mem_map.mpr ⟨j2, hs2, rfl⟩, ?_⟩
    have := h.gap j1 j2 (hmem j1 hs1).1 (by omega) (hmem j2 hs2).2.1
    have := h.pos
    intro hc
    simp only at hc
    linarith
  · unfold η; norm_num

/-- **C148, constant phase (partial).**  If in addition all good filtered phases of the window are the same, `Φ`, KDP is 0 up to
`12 (3.1 N + 7) H Φ / (1.6·10⁷ s² (N² - 1)) + 2^-99`. -/
theorem C148_constant_phase_partial (R : Ray Binary64) (ρ : Int → ℝ) (s H : ℝ) (h : Ranges64 R ρ s H) (ho : R.order ≤ 60000)
    (out : RayOut Binary64) (e : calcKdpRayFir cython false R = .ok out) (i : ℕ) (w : ℕ) (hb : (R.dz.mem i !=. R.bad) = true)
    (hw : Width64 R (R.dz.mem i) w) (h0 : w / 2 ≤ i) (h1 : i + w / 2 < R.n)
    (Φ : ℝ) (hΦ : OkRange Φ) (hφ : ∀ j ∈ goodGates R out (i - w / 2) (2 * (w / 2)), IeeeFloat.val (out.dp.getD j PyFloat.nan) = .fin Φ)
    (N : ℕ) (hN : (goodGates R out (i - w / 2) (2 * (w / 2))).length = N) (hN2 : 2 ≤ N) (h8 : (0.8001 : ℝ) * w ≤ N) (hres : Resolved2 N s H) :
    ∃ (v : Binary64) (k : ℝ), out.kd[i]? = some v ∧ IeeeFloat.val v = .fin k ∧
      |k| ≤ 12 * (3.1 * N + 7) * H * Φ / (16000000 * (s ^ 2 * (N ^ 2 - 1))) + 2 ^ (-99 : ℤ) := by
  obtain ⟨v, k, a, b, hv, hk, hls, herr⟩ := C148_slope_error_partial R ρ s H h ho out e i w hb hw h0 h1 (fun _ => Φ) Φ
    (fun j hj => ⟨hφ j hj, hΦ, le_refl _⟩) N hN hN2 h8 hres
  have ha : a = 0 := by
    have hz : sse ((goodGates R out (i - w / 2) (2 * (w / 2))).map (fun j : ℕ => (ρ j, Φ))) 0 Φ = 0 := by
      unfold sse
      refine List.sum_eq_zero (fun x hx => ?_)
      obtain ⟨p, hp, rfl⟩ := List.mem_map.mp hx
      obtain ⟨j, hj, rfl⟩ := List.mem_map.mp hp
      simp
    have hnn : 0 ≤ sse ((goodGates R out (i - w / 2) (2 * (w / 2))).map (fun j : ℕ => (ρ j, Φ))) a b := by
      unfold sse
      refine List.sum_nonneg (fun x hx => ?_)
      obtain ⟨p, hp, rfl⟩ := List.mem_map.mp hx
      positivity
    have hle := (hls 0 Φ).1
    rw [hz] at hle
    exact ((hls 0 Φ).2 (by rw [hz]; exact le_antisymm hnn hle)).1.symm
  rw [ha] at herr
  refine ⟨v, k, hv, hk, ?_⟩
  simpa using herr

/-- 201 gates every 125 m with phase 100, reflectivity 50 and a filter of order 20 -/
noncomputable def gates125 : Ray Binary64 where
  n := 201
  dp := ⟨201, fun _ => 100⟩
  dz := ⟨201, fun _ => 50⟩
  rng := ⟨201, fun j => PyFloat.lit ((j : ℚ) / 8)⟩
  thsd := ⟨201, fun _ => 12⟩
  nf := 0
  bad := -32768
  order := 20
  gain := 1
  coef := ⟨21, fun _ => 1⟩
  stdGate := 15
  nadp0 := 0

/-- The hypotheses can be met: for this ray the theorem says that the KDP of gate 100 is less than 0.05 degrees per km (it should be 0). -/
example : ∃ (out : RayOut Binary64) (v : Binary64) (k : ℝ), calcKdpRayFir cython false gates125 = .ok out ∧ out.kd[100]? = some v ∧
    IeeeFloat.val v = .fin k ∧ |k| ≤ 0.05 := by
  have hbad : IeeeFloat.val (gates125.bad) = .fin (-32768) := by
    show IeeeFloat.val (-(32768 : Binary64)) = _
    rw [vneg, voflit 32768 (by norm_num)]; rfl
  have h50 : IeeeFloat.val (50 : Binary64) = .fin 50 := voflit 50 (by norm_num)
  have h100 : IeeeFloat.val (100 : Binary64) = .fin 100 := voflit 100 (by norm_num)
  obtain ⟨out, e⟩ := C147_gates_125m gates125 (by show 201 ≤ 1601; norm_num) rfl (by show (1 : Int) ≤ 15; norm_num) (fun j _ _ => rfl) (-32768) hbad (by norm_num)
    (fun i _ _ => by show IeeeFloat.val (50 : Binary64) ≠ _; rw [h50]; simp)
  have hne : ∀ (x : Binary64) (z : ℝ), IeeeFloat.val x = .fin z → 0 ≤ z → (x !=. gates125.bad) = true := fun x z hx hz => by
    simp only [PyFloat.ne, Bool.not_eq_true']
    rw [val_eq, hx, hbad]
    simp only [XR.eq, decide_eq_false_iff_not]
    intro h; linarith
  have hr : Ranges64 gates125 (fun j => j / 8) (1 / 8) 25 := by
    refine ⟨fun j j0 j1 => ?_, by norm_num, fun j k j0 jk k1 => ?_⟩
    · have j1 : j < 201 := j1
      have hj : (j : ℝ) ≤ 200 := by exact_mod_cast (by omega : j ≤ 200)
      have hj0 : (0 : ℝ) ≤ j := by exact_mod_cast j0
      have hv : IeeeFloat.val (gates125.rng.mem j) = .fin ((j : ℝ) / 8) := by
        show IeeeFloat.val (PyFloat.lit ((j : ℚ) / 8) : Binary64) = _
        rw [val_lit]
        push_cast
        refine rnd_simple ⟨j, -3, ?_, by norm_num, by norm_num; ring⟩
        rw [abs_of_nonneg j0]
        exact le_trans (by omega : j ≤ 200) (by norm_num)
      refine ⟨hv, ?_, by linarith, hne _ _ hv (by positivity)⟩
      rcases j0.lt_or_eq with h | h
      · right
        have : (1 : ℝ) ≤ j := by exact_mod_cast h
        exact ⟨by norm_num; linarith, by norm_num; linarith⟩
      · left; rw [← h]; simp
    · have : (j : ℝ) + 1 ≤ k := by exact_mod_cast (by omega : j + 1 ≤ k)
      show (j : ℝ) / 8 + 1 / 8 ≤ k / 8
      linarith
  have hgd : ∀ j : ℕ, j < 201 → out.dp.getD j PyFloat.nan = 100 := fun j hj => by
    rw [List.getD_eq_getElem?_getD, C11_no_passes cython false gates125 rfl out e j hj]; rfl
  have hgates : goodGates gates125 out 95 10 = (List.range 10).map (fun k => 95 + k) := by
    unfold goodGates
    rw [List.filter_eq_self]
    intro j hj
    obtain ⟨k, hk, rfl⟩ := List.mem_map.mp hj
    have := List.mem_range.mp hk
    rw [hgd _ (by omega)]
    exact hne _ _ h100 (by norm_num)
  obtain ⟨v, k, hv, hk, hb⟩ := C148_constant_phase_partial gates125 _ _ _ hr (by show 20 ≤ 60000; norm_num) out e 100 10
    (hne _ _ (show IeeeFloat.val (50 : Binary64) = _ from h50) (by norm_num)) ⟨50, h50, .inl ⟨by norm_num, rfl⟩⟩ (by norm_num) (by show 105 < 201; norm_num) 100
    (.inr ⟨by norm_num, by norm_num⟩) (fun j hj => by
      rw [show (100 - 10 / 2 : ℕ) = 95 by norm_num, show 2 * (10 / 2) = 10 by norm_num, hgates] at hj
      obtain ⟨k, hk, rfl⟩ := List.mem_map.mp hj
      have := List.mem_range.mp hk
      rw [hgd _ (by omega)]; exact h100) 10
    (by rw [show (100 - 10 / 2 : ℕ) = 95 by norm_num, show 2 * (10 / 2) = 10 by norm_num, hgates]; simp) (by norm_num) (by norm_num)
    (by unfold Resolved2; norm_num)
  refine ⟨out, v, k, e, hv, hk, hb.trans ?_⟩
  norm_num

/-- **C148, full statement**: as in exact arithmetic (C12), the KDP of constant phase is 0 where it is not the bad value. -/
def C148Full : Prop := ∀ (R : Ray Binary64) (ρ : Int → ℝ) (out : RayOut Binary64) (c : Binary64),
  (∀ j : Int, 0 ≤ j → j < R.n → IeeeFloat.val (R.rng.mem j) = .fin (ρ j) ∧ (R.rng.mem j !=. R.bad) = true) →
  (∀ j k : Int, 0 ≤ j → j < k → k < R.n → ρ j < ρ k) →
  R.order % 2 = 0 → 1 ≤ R.stdGate → calcKdpRayFir cython false R = .ok out → (c !=. R.bad) = true → (∀ p ∈ out.dp, p = c) →
  ∀ v ∈ out.kd, v = R.bad ∨ (v ==. 0) = true

set_option maxRecDepth 100000 in
theorem flat60_check : (∀ j : Fin 11, ((flatRay 60 0.01 100.1).rng.mem (j : ℕ)).1 = .fin (ratOf ((flatRay 60 0.01 100.1).rng.mem (j : ℕ)))) ∧
    (∀ j : Fin 11, ((flatRay 60 0.01 100.1).rng.mem (j : ℕ) !=. (flatRay 60 0.01 100.1).bad) = true) ∧
    (∀ j k : Fin 11, j < k → ratOf ((flatRay 60 0.01 100.1).rng.mem (j : ℕ)) < ratOf ((flatRay 60 0.01 100.1).rng.mem (k : ℕ))) ∧
    ((calcKdpRayFir cython false (flatRay 60 0.01 100.1)).toOption.map (fun o => (o.kd.getD 5 0, o.dp))) =
      some (1, List.replicate 11 (f32 100.1)) := by decide +kernel

set_option maxRecDepth 100000 in
/-- **C148 is false of the code in floating point.**  Gates at 60.00, 60.01, ..., 60.10 with the constant phase 100.1: KDP at the middle gate is 1 degree per km
(as far as the numbers go), not 0. -/
theorem C148_full_false : ¬ C148Full := by
  intro h
  obtain ⟨c1, c2, c3, c4⟩ := flat60_check
  have idx : ∀ j : Int, 0 ≤ j → j < (flatRay 60 0.01 100.1).n → ∃ a : Fin 11, j = ((a : ℕ) : Int) := fun j j0 j1 =>
    ⟨⟨j.toNat, by have : j < 11 := j1; omega⟩, by simp; omega⟩
  cases hc : calcKdpRayFir cython false (flatRay 60 0.01 100.1) with
  | error x => rw [hc] at c4; cases c4
  | ok out =>
    rw [hc] at c4
    injection c4 with c4
    injection c4 with k5 dp
    have key := h (flatRay 60 0.01 100.1) (fun j => (ratOf ((flatRay 60 0.01 100.1).rng.mem j) : ℝ)) out (f32 100.1) (fun j j0 j1 => by
        obtain ⟨a, rfl⟩ := idx j j0 j1
        exact ⟨val_ratOf (c1 a), c2 a⟩) (fun j k j0 jk k1 => by
        obtain ⟨a, rfl⟩ := idx j j0 (by omega)
        obtain ⟨b, rfl⟩ := idx k (by omega) k1
        have := c3 a b (by exact_mod_cast jk)
        exact_mod_cast this) (by decide) (by decide) hc (by decide +kernel) (by rw [dp]; exact fun p hp => List.eq_of_mem_replicate hp) 1 (by
          rw [← k5]
          have h5 : 5 < out.kd.length := by
            by_contra hcon
            rw [List.getD_eq_getElem?_getD, List.getElem?_eq_none (by omega)] at k5
            revert k5
            show (0 : Binary64) = 1 → False
            decide +kernel
          rw [List.getD_eq_getElem?_getD, List.getElem?_eq_getElem h5]
          exact List.getElem_mem h5)
    revert key
    show ((1 : Binary64) = -32768 ∨ _) → False
    decide +kernel
end c148
end Csu.Kdp
