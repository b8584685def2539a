import Verif.Props.Rain4
import Verif.Props.Rain3
/-!
# C143, C144: monotone rain rates of `csu_hidro_rain` and of `calc_blended_rain_tropical`
-/
namespace Csu.Rain
open Csu PyFloat RainSpec XR

/-! ## C143 -/

/-- the rule that gives the rain rate of a gate of class `c` -/
noncomputable def hidroRule (P : Params XR) (band : String) (d z k : XR) (c : Int) : Int :=
  if band = "S" then hidroMethodS P d z k c else hidroRuleOther P d k c

/-- the rules that use Kdp need Kdp above the threshold -/
theorem hidroRule_kdp (P : Params ℝ) (hk : 0 < P.threshKdp) (band : String) (d z : XR) (k : ℝ) (c : Int)
    (h : hidroRule P.toXR band d z (fin k) c = 1 ∨ hidroRule P.toXR band d z (fin k) c = 2) : 0 < k := by
  by_contra hcon
  have hc2 : (P.toXR.threshKdp <=. fin k) = false := by
    show (fin P.threshKdp <=. fin k) = false
    rw [fle]; simp only [decide_eq_false_iff_not]; linarith
  simp only [hidroRule, hidroMethodS, hidroRuleOther, hc2, Bool.and_false, Bool.false_eq_true, if_false, and_false] at h
  split_ifs at h <;> simp_all

/-- class-guided rain at the finite gates -/
theorem hidro_closed (P : Params ℝ) (hP : Sane P) (band : String) (d z k : NdArray XR) (c : NdArray Int) (hs : SameShape d z k)
    (hc : c.WF) (hcs : d.shape = c.shape) :
    ∃ r m, csuHidroRain P.toXR band (some (.arr d)) (some (.arr z)) (some (.arr k)) (some (.arr c)) = .ok (some (.arr r m none)) ∧
      ∀ (i : Nat) (dv zv kv : ℝ) (cv : Int), d.data[i]? = some (fin dv) → z.data[i]? = some (fin zv) → k.data[i]? = some (fin kv) →
        c.data[i]? = some cv →
        (m.data[i]? = some (if band = "S" then hidroRule P.toXR band (fin dv) (fin zv) (fin kv) cv
          else if hidroRule P.toXR band (fin dv) (fin zv) (fin kv) cv = 4 then 4 else 2)) ∧
        r.data[i]? = some (Common.store d.dtype (fin (rateR { P with threshNexrad := 53 } 0 0 dv zv kv
          (hidroRule P.toXR band (fin dv) (fin zv) (fin kv) cv)))) := by
  have hrate : ∀ (dv zv kv : ℝ) (m : Int), (m = 1 ∨ m = 2 → 0 < kv) → rate P.toXR 53 (fin 0) (fin 0) (fin dv) (fin zv) (fin kv) m =
      fin (rateR { P with threshNexrad := 53 } 0 0 dv zv kv m) := by
    intro dv zv kv m hk
    have := rate_closed { P with threshNexrad := 53 } ⟨hP.kdp, hP.za, hP.zb, hP.ka, hP.kza, hP.zza⟩ 0 0 dv zv kv m hk
    rw [foflit]
    exact this
  have h0 : Common.store d.dtype (fin 0) = 0 := by
    cases d.dtype
    · simp [Common.store, truncR]
    · simp [Common.store]
  by_cases hb : band = "S"
  · subst hb
    obtain ⟨r, m, e1, -, -, -, -, e6⟩ := C44_hidro_S_exact P.toXR d z k c hs hc hcs (fin 0) (fin 0)
    refine ⟨r, m, e1, fun i dv zv kv cv p1 p2 p3 p4 => ?_⟩
    obtain ⟨a1, a2, a3⟩ := e6 i _ _ _ _ p1 p2 p3 p4
    have hk := hidroRule_kdp P hP.kdp "S" (fin dv) (fin zv) kv cv
    have er : hidroRule P.toXR "S" (fin dv) (fin zv) (fin kv) cv = hidroMethodS P.toXR (fin dv) (fin zv) (fin kv) cv := by
      simp [hidroRule]
    rw [er] at hk ⊢
    rw [if_pos rfl]
    refine ⟨a1, ?_⟩
    by_cases hz : hidroMethodS P.toXR (fin dv) (fin zv) (fin kv) cv = 0
    · rw [a2 hz, hz]
      simp [rateR, h0]
    · rw [a3 hz, hrate _ _ _ _ hk]
  · obtain ⟨r, m, e1, -, -, -, -, e6⟩ := C44_hidro_other_exact P.toXR band hb d z k c hs hc hcs (fin 0) (fin 0)
    refine ⟨r, m, e1, fun i dv zv kv cv p1 p2 p3 p4 => ?_⟩
    obtain ⟨a1, a2, a3, a4⟩ := e6 i _ _ _ p1 p3 p4
    have hk := hidroRule_kdp P hP.kdp band (fin dv) (fin zv) kv cv
    have er : hidroRule P.toXR band (fin dv) (fin zv) (fin kv) cv = hidroRuleOther P.toXR (fin dv) (fin kv) cv := by
      simp [hidroRule, hb]
    rw [er] at hk ⊢
    rw [if_neg hb]
    refine ⟨a1, ?_⟩
    have hr := hrate dv zv kv (hidroRuleOther P.toXR (fin dv) (fin kv) cv) hk
    have hrg := (C44_code_range P.toXR (fin dv) (fin zv) (fin kv) cv).2
    simp only [List.mem_cons, List.not_mem_nil, or_false] at hrg
    rcases hrg with hh | hh | hh
    · rw [a4 hh, hh]; simp [rateR, h0]
    · rw [hh] at hr ⊢
      rw [a2 hh, ← hr]; simp [rate]
    · rw [hh] at hr ⊢
      rw [a3 hh, ← hr]; simp [rate]

/-- C143 in full: with default parameters, of two finite gates of the same class and zdr the one with the larger (or equal) reflectivity and Kdp gets
the larger (or equal) rain rate. -/
def C143Full : Prop := ∀ (band : String) (d z k r : NdArray XR) (c m : NdArray Int),
  csuHidroRain Params.default band (some (.arr d)) (some (.arr z)) (some (.arr k)) (some (.arr c)) = .ok (some (.arr r m none)) →
  ∀ (i j : Nat) (d1 d2 zz k1 k2 x y : ℝ) (cv : Int), d.data[i]? = some (fin d1) → d.data[j]? = some (fin d2) → z.data[i]? = some (fin zz) →
    z.data[j]? = some (fin zz) → k.data[i]? = some (fin k1) → k.data[j]? = some (fin k2) → c.data[i]? = some cv → c.data[j]? = some cv →
    d1 ≤ d2 → k1 ≤ k2 → r.data[i]? = some (fin x) → r.data[j]? = some (fin y) → x ≤ y

/-- two gates with the same rule, or the first without rain -/
theorem hidro_pair (P : Params ℝ) (hP : Increasing P) {d1 d2 z1 z2 k1 k2 : ℝ} {m1 m2 : Int} (t : DType)
    (hk : m1 = 1 ∨ m1 = 2 → 0 < k1) (hk2 : m2 = 1 ∨ m2 = 2 → 0 < k2) (hd : d1 ≤ d2) (hkk : k1 ≤ k2) (h : m1 = m2 ∨ m1 = 0) (h5 : m1 ≠ 5)
    (hz : m1 = 1 ∨ m1 = 3 → z2 ≤ z1) :
    ∃ x y : ℝ, Common.store t (fin (rateR { P with threshNexrad := 53 } 0 0 d1 z1 k1 m1)) = fin x ∧
      Common.store t (fin (rateR { P with threshNexrad := 53 } 0 0 d2 z2 k2 m2)) = fin y ∧ x ≤ y := by
  have hS : Sane { P with threshNexrad := 53 } := ⟨hP.kdp, hP.za, hP.zb, hP.ka, hP.kza, hP.zza⟩
  apply store_mono t (rateR_nonneg _ hS 0 0 d1 z1 k1 m1 hk)
  rcases h with rfl | rfl
  · exact rateR_mono { P with threshNexrad := 53 } ⟨hS, hP.kb, hP.kzb, hP.zzb, hP.kzc, hP.zzc⟩ 0 0 le_rfl m1 hk hd hkk hz (fun e => absurd e h5)
  · have : rateR { P with threshNexrad := 53 } 0 0 d1 z1 k1 0 = 0 := by simp [rateR]
    rw [this]
    exact rateR_nonneg _ hS 0 0 d2 z2 k2 m2 hk2

theorem hidroRule_ne5 (P : Params XR) (band : String) (d z k : XR) (c : Int) : hidroRule P band d z k c ≠ 5 := by
  unfold hidroRule
  split_ifs
  · have := (C44_code_range P d z k c).1
    intro h; rw [h] at this; simp at this
  · have := (C44_code_range P d z k c).2
    intro h; rw [h] at this; simp at this

/-- the test for heavy rain is monotone -/
theorem heavy_mono (P : Params ℝ) {d1 d2 k1 k2 : ℝ} (hd : d1 ≤ d2) (hk : k1 ≤ k2)
    (h : (P.toXR.threshDz <=. fin d1 && P.toXR.threshKdp <=. fin k1) = true) :
    (P.toXR.threshDz <=. fin d2 && P.toXR.threshKdp <=. fin k2) = true := by
  simp only [Params.toXR, fle, Bool.and_eq_true, decide_eq_true_eq] at h ⊢
  exact ⟨h.1.trans hd, h.2.trans hk⟩

/-- **C143**, what holds: among gates of one class given the same method the rain rate never decreases with reflectivity or Kdp and (methods 1 and 3) never
increases with zdr; every band, any coefficients of the usual signs, also integer rain arrays. -/
theorem C143_same_method_partial (P : Params ℝ) (hP : Increasing P) (band : String) (d z k : NdArray XR) (c : NdArray Int) (hs : SameShape d z k)
    (hc : c.WF) (hcs : d.shape = c.shape) :
    ∃ r m, csuHidroRain P.toXR band (some (.arr d)) (some (.arr z)) (some (.arr k)) (some (.arr c)) = .ok (some (.arr r m none)) ∧
      ∀ (i j : Nat) (d1 d2 z1 z2 k1 k2 : ℝ) (cv : Int), d.data[i]? = some (fin d1) → d.data[j]? = some (fin d2) → z.data[i]? = some (fin z1) →
        z.data[j]? = some (fin z2) → k.data[i]? = some (fin k1) → k.data[j]? = some (fin k2) → c.data[i]? = some cv → c.data[j]? = some cv →
        d1 ≤ d2 → k1 ≤ k2 → ∀ mm : Int, m.data[i]? = some mm → m.data[j]? = some mm → (mm = 1 ∨ mm = 3 → z2 ≤ z1) →
        ∃ x y : ℝ, r.data[i]? = some (fin x) ∧ r.data[j]? = some (fin y) ∧ x ≤ y := by
  obtain ⟨r, m, e, h⟩ := hidro_closed P hP.toSane band d z k c hs hc hcs
  refine ⟨r, m, e, fun i j d1 d2 z1 z2 k1 k2 cv p1 p2 p3 p4 p5 p6 p7 p8 hd hk mm m1 m2 q => ?_⟩
  obtain ⟨a1, a2⟩ := h i _ _ _ _ p1 p3 p5 p7
  obtain ⟨b1, b2⟩ := h j _ _ _ _ p2 p4 p6 p8
  rw [a1] at m1
  rw [b1] at m2
  have m1 := Option.some.inj m1
  have m2 := Option.some.inj m2
  have hk1 := hidroRule_kdp P hP.kdp band (fin d1) (fin z1) k1 cv
  have hk2 := hidroRule_kdp P hP.kdp band (fin d2) (fin z2) k2 cv
  have h5 := hidroRule_ne5 P.toXR band (fin d1) (fin z1) (fin k1) cv
  by_cases hb : band = "S"
  · rw [if_pos hb] at m1 m2
    obtain ⟨x, y, ex, ey, hxy⟩ := hidro_pair P hP d.dtype hk1 hk2 hd hk (Or.inl (m1.trans m2.symm)) h5 (z1 := z1) (z2 := z2) (by rw [m1]; exact q)
    exact ⟨x, y, by rw [a2, ex], by rw [b2, ey], hxy⟩
  · rw [if_neg hb] at m1 m2
    have hrule : hidroRule P.toXR band (fin d1) (fin z1) (fin k1) cv = hidroRule P.toXR band (fin d2) (fin z2) (fin k2) cv ∨
        hidroRule P.toXR band (fin d1) (fin z1) (fin k1) cv = 0 := by
      simp only [hidroRule, hb, if_false] at m1 m2 ⊢
      have hmono := heavy_mono P hd hk
      have hrg := (C44_code_range P.toXR (fin d1) (fin z1) (fin k1) cv).2
      simp only [List.mem_cons, List.not_mem_nil, or_false] at hrg
      rcases hrg with hh | hh | hh
      · exact Or.inr hh
      · left
        have : (P.toXR.threshDz <=. fin d1 && P.toXR.threshKdp <=. fin k1) = true := by
          by_contra hcon
          simp only [hidroRuleOther, if_neg hcon] at hh
          split_ifs at hh <;> simp at hh
        rw [hh]
        simp only [hidroRuleOther, if_pos (hmono this)]
      · left
        rw [if_pos hh] at m1
        by_contra hcon
        rw [if_neg (fun h => hcon (hh.trans h.symm))] at m2
        rw [← m1] at m2; cases m2
    have hz13 : hidroRule P.toXR band (fin d1) (fin z1) (fin k1) cv = 1 ∨ hidroRule P.toXR band (fin d1) (fin z1) (fin k1) cv = 3 → z2 ≤ z1 := by
      intro hh
      have := (C44_code_range P.toXR (fin d1) (fin z1) (fin k1) cv).2
      simp only [hidroRule, hb, if_false] at hh
      rcases hh with hh | hh <;> rw [hh] at this <;> simp at this
    obtain ⟨x, y, ex, ey, hxy⟩ := hidro_pair P hP d.dtype hk1 hk2 hd hk hrule h5 hz13
    exact ⟨x, y, by rw [a2, ex], by rw [b2, ey], hxy⟩

/-- **C143**, what holds: among gates of the same class other than drizzle, rain and big drops (1, 2, 10), the gate with the larger (or equal) reflectivity
and Kdp always gets the larger (or equal) rain rate, whatever the methods and zdr. -/
theorem C143_ice_partial (P : Params ℝ) (hP : Increasing P) (band : String) (d z k : NdArray XR) (c : NdArray Int) (hs : SameShape d z k)
    (hc : c.WF) (hcs : d.shape = c.shape) :
    ∃ r m, csuHidroRain P.toXR band (some (.arr d)) (some (.arr z)) (some (.arr k)) (some (.arr c)) = .ok (some (.arr r m none)) ∧
      ∀ (i j : Nat) (d1 d2 z1 z2 k1 k2 : ℝ) (cv : Int), d.data[i]? = some (fin d1) → d.data[j]? = some (fin d2) → z.data[i]? = some (fin z1) →
        z.data[j]? = some (fin z2) → k.data[i]? = some (fin k1) → k.data[j]? = some (fin k2) → c.data[i]? = some cv → c.data[j]? = some cv →
        cv ∉ ([1, 2, 10] : List Int) → d1 ≤ d2 → k1 ≤ k2 →
        ∃ x y : ℝ, r.data[i]? = some (fin x) ∧ r.data[j]? = some (fin y) ∧ x ≤ y := by
  obtain ⟨r, m, e, h⟩ := hidro_closed P hP.toSane band d z k c hs hc hcs
  refine ⟨r, m, e, fun i j d1 d2 z1 z2 k1 k2 cv p1 p2 p3 p4 p5 p6 p7 p8 hice hd hk => ?_⟩
  obtain ⟨a1, a2⟩ := h i _ _ _ _ p1 p3 p5 p7
  obtain ⟨b1, b2⟩ := h j _ _ _ _ p2 p4 p6 p8
  have hk1 := hidroRule_kdp P hP.kdp band (fin d1) (fin z1) k1 cv
  have hk2 := hidroRule_kdp P hP.kdp band (fin d2) (fin z2) k2 cv
  have h5 := hidroRule_ne5 P.toXR band (fin d1) (fin z1) (fin k1) cv
  have hl : ¬ (cv = 1 ∨ cv = 2 ∨ cv = 10) := by simpa using hice
  have hrule : hidroRule P.toXR band (fin d1) (fin z1) (fin k1) cv = 0 ∨ hidroRule P.toXR band (fin d1) (fin z1) (fin k1) cv = 2 ∧
      hidroRule P.toXR band (fin d2) (fin z2) (fin k2) cv = 2 := by
    by_cases hb : band = "S"
    · simp only [hidroRule, hb, if_true, hidroMethodS, if_neg hl]
      by_cases hh : (cv = 5 ∨ cv = 7 ∨ cv = 8 ∨ cv = 9) ∧ (P.toXR.threshKdp <=. fin k1) = true
      · have h2 : (P.toXR.threshKdp <=. fin k2) = true := by
          have := hh.2
          simp only [Params.toXR, fle, decide_eq_true_eq] at this ⊢
          linarith
        rw [if_pos hh, if_pos ⟨hh.1, h2⟩]
        exact Or.inr ⟨rfl, rfl⟩
      · rw [if_neg hh]; exact Or.inl rfl
    · simp only [hidroRule, hb, if_false, hidroRuleOther, if_neg hl]
      by_cases hh : (P.toXR.threshDz <=. fin d1 && P.toXR.threshKdp <=. fin k1) = true
      · rw [if_pos hh, if_pos (heavy_mono P hd hk hh)]
        exact Or.inr ⟨rfl, rfl⟩
      · rw [if_neg hh]; exact Or.inl rfl
  obtain ⟨x, y, ex, ey, hxy⟩ := hidro_pair P hP (z1 := z1) (z2 := z2) d.dtype hk1 hk2 hd hk
    (by rcases hrule with h0 | ⟨h1, h2⟩
        · exact Or.inr h0
        · exact Or.inl (h1.trans h2.symm)) h5
    (by intro hh
        rcases hrule with h0 | ⟨h1, -⟩
        · rw [h0] at hh; simp at hh
        · rw [h1] at hh; simp at hh)
  exact ⟨x, y, by rw [a2, ex], by rw [b2, ey], hxy⟩

/-- **C143 is false**: rain at 53 dBZ (band C), raising Kdp from 0.2 to 0.3 lowers the rate from over 41 to at most 40.5 mm/h. -/
theorem C143_full_false : ¬ C143Full := by
  intro h
  have hs : SameShape (⟨.float, [2], [fin 53, fin 53]⟩ : NdArray XR) (⟨.float, [2], [fin 1, fin 1]⟩ : NdArray XR)
      (⟨.float, [2], [fin 0.2, fin 0.3]⟩ : NdArray XR) := ⟨rfl, rfl, rfl, rfl, rfl⟩
  obtain ⟨r, m, e, e6⟩ := hidro_closed realDefault C40_defaults_sane.2 "C" _ _ _ ⟨.int, [2], [2, 2]⟩ hs rfl rfl
  rw [← C40_defaults_sane.1] at e
  obtain ⟨-, a2⟩ := e6 0 53 1 0.2 2 rfl rfl rfl rfl
  obtain ⟨-, b2⟩ := e6 1 53 1 0.3 2 rfl rfl rfl rfl
  have h1 : hidroRule realDefault.toXR "C" (fin 53) (fin 1) (fin 0.2) 2 = 4 := by
    have : ((realDefault.toXR.threshDz <=. fin 53) && (realDefault.toXR.threshKdp <=. fin 0.2)) = false := by
      simp [Params.toXR, realDefault]; norm_num
    simp [hidroRule, hidroRuleOther, this]
  have h2 : hidroRule realDefault.toXR "C" (fin 53) (fin 1) (fin 0.3) 2 = 2 := by
    have : ((realDefault.toXR.threshDz <=. fin 53) && (realDefault.toXR.threshKdp <=. fin 0.3)) = true := by
      simp [Params.toXR, realDefault]; norm_num
    simp [hidroRule, hidroRuleOther, this]
  rw [h1] at a2
  rw [h2] at b2
  have := h "C" _ _ _ r _ m e 0 1 53 53 1 0.2 0.3 _ _ 2 rfl rfl rfl rfl rfl rfl rfl rfl le_rfl (by norm_num) a2 b2
  have h3 := cap_rate
  have h4 : (0.3 : ℝ) ^ (0.85 : ℝ) ≤ 1 := Real.rpow_le_one (by norm_num) (by norm_num) (by norm_num)
  simp only [rateR, realDefault] at this
  norm_num at this h3 h4
  linarith

/-- two rain gates and two graupel gates at S band -/
theorem hidro_ex : SameShape (⟨.float, [4], [fin 20, fin 30, fin 20, fin 50]⟩ : NdArray XR) (⟨.float, [4], [fin 0, fin 0, fin 1, fin 3]⟩ : NdArray XR)
    (⟨.float, [4], [fin 0, fin 0, fin 0, fin 1]⟩ : NdArray XR) := ⟨rfl, rfl, rfl, rfl, rfl⟩

example : ∃ r m, csuHidroRain realDefault.toXR "S" (some (.arr ⟨.float, [4], [fin 20, fin 30, fin 20, fin 50]⟩))
      (some (.arr ⟨.float, [4], [fin 0, fin 0, fin 1, fin 3]⟩)) (some (.arr ⟨.float, [4], [fin 0, fin 0, fin 0, fin 1]⟩))
      (some (.arr ⟨.int, [4], [2, 2, 8, 8]⟩)) = .ok (some (.arr r m none)) ∧
    (∃ x y : ℝ, r.data[0]? = some (fin x) ∧ r.data[1]? = some (fin y) ∧ x ≤ y) ∧
    (∃ x y : ℝ, r.data[2]? = some (fin x) ∧ r.data[3]? = some (fin y) ∧ x ≤ y) := by
  obtain ⟨r, m, e, h⟩ := C143_same_method_partial realDefault default_increasing "S" _ _ _ ⟨.int, [4], [2, 2, 8, 8]⟩ hidro_ex rfl rfl
  obtain ⟨r', m', e', h'⟩ := C143_ice_partial realDefault default_increasing "S" _ _ _ ⟨.int, [4], [2, 2, 8, 8]⟩ hidro_ex rfl rfl
  obtain ⟨r2, m2, e2, h2⟩ := hidro_closed realDefault default_increasing.toSane "S" _ _ _ ⟨.int, [4], [2, 2, 8, 8]⟩ hidro_ex rfl rfl
  rw [e] at e' e2
  cases e'; cases e2
  have hm : ∀ q : ℝ, q < 38 → hidroRule realDefault.toXR "S" (fin q) (fin 0) (fin 0) 2 = 4 := by
    intro q hq
    have : (realDefault.toXR.threshDz <=. fin q) = false := by
      show (fin 38 <=. fin q) = false
      rw [fle]; simpa using hq
    simp [hidroRule, hidroMethodS, this]
  refine ⟨r, m, e, h 0 1 20 30 0 0 0 0 2 rfl rfl rfl rfl rfl rfl rfl rfl (by norm_num) le_rfl 4 ?_ ?_ (by norm_num),
    h' 2 3 20 50 1 3 0 1 8 rfl rfl rfl rfl rfl rfl rfl rfl (by decide) (by norm_num) (by norm_num)⟩
  · rw [(h2 0 20 0 0 2 rfl rfl rfl rfl).1, if_pos rfl, hm _ (by norm_num)]
  · rw [(h2 1 30 0 0 2 rfl rfl rfl rfl).1, if_pos rfl, hm _ (by norm_num)]

/-! ## C144 -/

/-- real coefficients as floats -/
noncomputable def TropParams.toXR (Q : TropParams ℝ) : TropParams XR :=
  ⟨fin Q.threshDz, fin Q.threshZdr, fin Q.threshKdp, fin Q.rZA, fin Q.rZB, fin Q.rZAc, fin Q.rZBc, fin Q.rZAs, fin Q.rZBs, fin Q.rKdpA, fin Q.rKdpB,
    fin Q.rZZdrA, fin Q.rZZdrB, fin Q.rZZdrC, fin Q.rKdpZdrA, fin Q.rKdpZdrB, fin Q.rKdpZdrC⟩

/-- coefficients for which every tropical relation increases with reflectivity and Kdp and none of those using zdr increases with it -/
structure TropIncreasing (Q : TropParams ℝ) : Prop where
  kdp : 0 < Q.threshKdp
  z : 0 < Q.rZA ∧ 0 < Q.rZB
  zc : 0 < Q.rZAc ∧ 0 < Q.rZBc
  zs : 0 < Q.rZAs ∧ 0 < Q.rZBs
  k : 0 ≤ Q.rKdpA ∧ 0 ≤ Q.rKdpB
  kz : 0 ≤ Q.rKdpZdrA ∧ 0 ≤ Q.rKdpZdrB ∧ Q.rKdpZdrC ≤ 0
  zz : 0 ≤ Q.rZZdrA ∧ 0 ≤ Q.rZZdrB ∧ Q.rZZdrC ≤ 0

/-- the tropical rain rate of each method at a finite gate -/
noncomputable def tropR (Q : TropParams ℝ) (d z k : ℝ) (m : Int) : ℝ :=
  if m = 1 then Q.rKdpZdrA * k ^ Q.rKdpZdrB * 10 ^ (Q.rKdpZdrC * z)
  else if m = 2 then Q.rKdpA * k ^ Q.rKdpB
  else if m = 3 then Q.rZZdrA * (10 ^ (d / 10)) ^ Q.rZZdrB * 10 ^ (Q.rZZdrC * z)
  else if m = 4 then (10 ^ (d / 10) / Q.rZA) ^ (1 / Q.rZB)
  else if m = 5 then (10 ^ (d / 10) / Q.rZAc) ^ (1 / Q.rZBc)
  else if m = 6 then (10 ^ (d / 10) / Q.rZAs) ^ (1 / Q.rZBs)
  else 0

theorem tropRate_closed (Q : TropParams ℝ) (hQ : TropIncreasing Q) (d z k : ℝ) (m : Int) (hk : m = 1 ∨ m = 2 → 0 < k) :
    tropRate Q.toXR (fin d) (fin z) (fin k) m = fin (tropR Q d z k m) := by
  have h10 : ∀ c y : ℝ, ((10 : XR) ^ (fin c * fin y)) = fin ((10 : ℝ) ^ (c * y)) := by
    intro c y; simp only [foflit, fmul]; rw [fpow (by norm_num)]
  simp only [tropRate, tropR, TropParams.toXR]
  split_ifs with h1 h2 h3 h4 h5 h6
  · rw [h10, fpow (hk (.inl h1)), fmul, fmul]
  · rw [fpow (hk (.inr h2)), fmul]
  · rw [h10, lin_fin, fpow (lin_pos d), fmul, fmul]
  · rw [rZR_fin hQ.z.1 hQ.z.2]
  · rw [rZR_fin hQ.zc.1 hQ.zc.2]
  · rw [rZR_fin hQ.zs.1 hQ.zs.2]
  · simp

theorem zr_mono' {c e : ℝ} (hc : 0 < c) (he : 0 < e) {x y : ℝ} (h : x ≤ y) :
    ((10 : ℝ) ^ (x / 10) / c) ^ (1 / e) ≤ ((10 : ℝ) ^ (y / 10) / c) ^ (1 / e) := by
  apply Real.rpow_le_rpow (div_nonneg (lin_pos _).le hc.le) _ (by positivity)
  apply div_le_div_of_nonneg_right _ hc.le
  exact Real.rpow_le_rpow_of_exponent_le (by norm_num) (by linarith)

theorem tropR_nonneg (Q : TropParams ℝ) (hQ : TropIncreasing Q) (d z k : ℝ) (m : Int) (hk : m = 1 ∨ m = 2 → 0 < k) : 0 ≤ tropR Q d z k m := by
  have hpos : ∀ c : ℝ, (0 : ℝ) ≤ 10 ^ c := fun c => (Real.rpow_pos_of_pos (by norm_num) _).le
  unfold tropR
  split_ifs with h1 h2 h3 h4 h5 h6
  · exact mul_nonneg (mul_nonneg hQ.kz.1 (Real.rpow_nonneg (hk (.inl h1)).le _)) (hpos _)
  · exact mul_nonneg hQ.k.1 (Real.rpow_nonneg (hk (.inr h2)).le _)
  · exact mul_nonneg (mul_nonneg hQ.zz.1 (Real.rpow_nonneg (lin_pos d).le _)) (hpos _)
  · exact Real.rpow_nonneg (div_nonneg (hpos _) hQ.z.1.le) _
  · exact Real.rpow_nonneg (div_nonneg (hpos _) hQ.zc.1.le) _
  · exact Real.rpow_nonneg (div_nonneg (hpos _) hQ.zs.1.le) _
  · exact le_rfl

theorem tropR_mono (Q : TropParams ℝ) (hQ : TropIncreasing Q) {d d' z z' k k' : ℝ} (m : Int) (hk : m = 1 ∨ m = 2 → 0 < k)
    (hd : d ≤ d') (hkk : k ≤ k') (hz : m = 1 ∨ m = 3 → z' ≤ z) : tropR Q d z k m ≤ tropR Q d' z' k' m := by
  have hpos : ∀ c : ℝ, (0 : ℝ) ≤ 10 ^ c := fun c => (Real.rpow_pos_of_pos (by norm_num) _).le
  unfold tropR
  split_ifs with h1 h2 h3 h4 h5 h6
  · have hk0 := hk (.inl h1)
    refine mul_le_mul (mul_le_mul_of_nonneg_left (Real.rpow_le_rpow hk0.le hkk hQ.kz.2.1) hQ.kz.1) ?_ (hpos _)
      (mul_nonneg hQ.kz.1 (Real.rpow_nonneg (hk0.le.trans hkk) _))
    exact Real.rpow_le_rpow_of_exponent_le (by norm_num) (mul_le_mul_of_nonpos_left (hz (.inl h1)) hQ.kz.2.2)
  · exact mul_le_mul_of_nonneg_left (Real.rpow_le_rpow (hk (.inr h2)).le hkk hQ.k.2) hQ.k.1
  · refine mul_le_mul (mul_le_mul_of_nonneg_left (Real.rpow_le_rpow (hpos _) ?_ hQ.zz.2.1) hQ.zz.1) ?_ (hpos _)
      (mul_nonneg hQ.zz.1 (Real.rpow_nonneg (hpos _) _))
    · exact Real.rpow_le_rpow_of_exponent_le (by norm_num) (by linarith)
    · exact Real.rpow_le_rpow_of_exponent_le (by norm_num) (mul_le_mul_of_nonpos_left (hz (.inr h3)) hQ.zz.2.2)
  · exact zr_mono' hQ.z.1 hQ.z.2 hd
  · exact zr_mono' hQ.zc.1 hQ.zc.2 hd
  · exact zr_mono' hQ.zs.1 hQ.zs.2 hd
  · exact le_rfl

/-- C144 in full: with the published coefficients, of two finite gates of the same rain type, class and zdr the one with the larger (or equal) reflectivity
and Kdp gets the larger (or equal) rain rate. -/
def C144Full : Prop := ∀ (band : String) (d z k r : NdArray XR) (c f : Option (NdArray Int)) (m : NdArray Int), band ∈ ["S", "C", "X"] →
  calcBlendedRainTropical TropParams.default "True" band (some (.arr d)) (some (.arr z)) (some (.arr k)) (c.map .arr) (f.map .arr) =
    .ok (some (.arr r m none)) →
  ∀ (i j : Nat) (d1 d2 zz k1 k2 x y : ℝ), d.data[i]? = some (fin d1) → d.data[j]? = some (fin d2) → z.data[i]? = some (fin zz) →
    z.data[j]? = some (fin zz) → k.data[i]? = some (fin k1) → k.data[j]? = some (fin k2) → clsAt c i = clsAt c j → clsAt f i = clsAt f j →
    d1 ≤ d2 → k1 ≤ k2 → r.data[i]? = some (fin x) → r.data[j]? = some (fin y) → x ≤ y

theorem tropMethod_kdp (Q : TropParams ℝ) (hk : 0 < Q.threshKdp) (d z : XR) (k : ℝ) (cs : Option Int)
    (h : tropMethod Q.toXR d z (fin k) cs = 1 ∨ tropMethod Q.toXR d z (fin k) cs = 2) : 0 < k := by
  by_contra hcon
  have hc2 : (Q.toXR.threshKdp <=. fin k) = false := by
    show (fin Q.threshKdp <=. fin k) = false
    rw [fle]; simp only [decide_eq_false_iff_not]; linarith
  simp only [tropMethod, hc2, Bool.and_false] at h
  revert h
  cases cs <;> dsimp only <;> split_ifs <;> simp_all

/-- **C144**, what holds: among gates of one rain type and class given the same method, the tropical rain rate never decreases with reflectivity or Kdp and
(methods 1 and 3) never increases with zdr. -/
theorem C144_same_method_partial (P0 : TropParams XR) (predef band : String) (Q : TropParams ℝ) (hQ : TropIncreasing Q)
    (hP : tropPredef predef band P0 = Q.toXR) (d z k : NdArray XR) (hs : SameShape d z k) (c f : Option (NdArray Int)) (hc : ClsFits d c) (hf : ClsFits d f) :
    ∃ r m, calcBlendedRainTropical P0 predef band (some (.arr d)) (some (.arr z)) (some (.arr k)) (c.map .arr) (f.map .arr) =
        .ok (some (.arr r m none)) ∧
      ∀ (i j : Nat) (d1 d2 z1 z2 k1 k2 : ℝ), d.data[i]? = some (fin d1) → d.data[j]? = some (fin d2) → z.data[i]? = some (fin z1) →
        z.data[j]? = some (fin z2) → k.data[i]? = some (fin k1) → k.data[j]? = some (fin k2) → clsAt c i = clsAt c j → clsAt f i = clsAt f j →
        d1 ≤ d2 → k1 ≤ k2 → ∀ mm : Int, m.data[i]? = some mm → m.data[j]? = some mm → (mm = 1 ∨ mm = 3 → z2 ≤ z1) →
        ∃ x y : ℝ, r.data[i]? = some (fin x) ∧ r.data[j]? = some (fin y) ∧ x ≤ y := by
  obtain ⟨r, m, e, -, -, -, -, -, h⟩ := tropical_gates P0 predef band d z k hs c f hc hf
  refine ⟨r, m, e, fun i j d1 d2 z1 z2 k1 k2 p1 p2 p3 p4 p5 p6 hcc hff hd hk mm m1 m2 q => ?_⟩
  obtain ⟨c1, f1, u1, v1, g1⟩ := h i _ _ _ p1 p3 p5
  obtain ⟨c2, f2, u2, v2, g2⟩ := h j _ _ _ p2 p4 p6
  rw [hP] at g1 g2
  have g1a := congrArg Prod.fst g1
  have g1b := congrArg Prod.snd g1
  have g2a := congrArg Prod.fst g2
  have g2b := congrArg Prod.snd g2
  dsimp only at g1a g1b g2a g2b
  rw [g1b] at m1
  rw [g2b] at m2
  have m1 := Option.some.inj m1
  have m2 := Option.some.inj m2
  rw [u1, u2] at hcc
  rw [v1, v2] at hff
  rw [g1a, g2a]
  have hff' : (f.isSome && (decide (2 < f1) && decide (f1 < 10))) = (f.isSome && (decide (2 < f2) && decide (f2 < 10))) := by
    cases hfs : f.isSome
    · rfl
    · rw [hfs] at hff; simp only [if_true, Option.some.injEq] at hff; rw [hff]
  have h0 : ∀ t, Common.store t (fin 0) = fin 0 := by
    intro t; cases t
    · simp [Common.store, truncR]
    · simp [Common.store]
  have z0 : (0 : XR) = fin 0 := by simp
  have zero_le : ∀ y : ℝ, 0 ≤ y → ∃ u v : ℝ, (some (0 : XR)) = some (fin u) ∧ some (Common.store d.dtype (fin y)) = some (fin v) ∧ u ≤ v := by
    intro y hy
    obtain ⟨u, v, e1, e2, e3⟩ := store_mono d.dtype le_rfl hy
    rw [h0] at e1
    exact ⟨u, v, by rw [z0, e1], by rw [e2], e3⟩
  have pair : ∀ n : Int, (n = 1 ∨ n = 2 → 0 < k1) → (n = 1 ∨ n = 3 → z2 ≤ z1) → ∃ x y : ℝ,
      some (Common.store d.dtype (tropRate Q.toXR (fin d1) (fin z1) (fin k1) n)) = some (fin x) ∧
      some (Common.store d.dtype (tropRate Q.toXR (fin d2) (fin z2) (fin k2) n)) = some (fin y) ∧ x ≤ y := by
    intro n hn hz
    rw [tropRate_closed Q hQ _ _ _ _ hn, tropRate_closed Q hQ _ _ _ _ (fun h => (hn h).trans_le hk)]
    obtain ⟨u, v, e1, e2, e3⟩ := store_mono d.dtype (tropR_nonneg Q hQ d1 z1 k1 n hn) (tropR_mono Q hQ n hn hd hk hz)
    exact ⟨u, v, by rw [e1], by rw [e2], e3⟩
  have zz0 : ∃ x y : ℝ, some (0 : XR) = some (fin x) ∧ some (0 : XR) = some (fin y) ∧ x ≤ y := ⟨0, 0, by rw [z0], by rw [z0], le_rfl⟩
  have e10 : (-10 : XR) = fin (-10) := by rw [foflit, fneg]
  have hlow : (fin d2 <. (-10 : XR)) = true → (fin d1 <. (-10 : XR)) = true := by
    rw [e10, flt, flt, decide_eq_true_eq, decide_eq_true_eq]; intro h; linarith
  have hkp : ∀ x y : ℝ, x ≤ y → (Q.toXR.threshKdp <=. fin x) = true → (Q.toXR.threshKdp <=. fin y) = true := by
    intro x y hxy
    show (fin Q.threshKdp <=. fin x) = true → (fin Q.threshKdp <=. fin y) = true
    rw [fle, fle, decide_eq_true_eq, decide_eq_true_eq]; intro h; linarith
  have hdp : ∀ x y : ℝ, x ≤ y → (Q.toXR.threshDz <=. fin x) = true → (Q.toXR.threshDz <=. fin y) = true := by
    intro x y hxy
    show (fin Q.threshDz <=. fin x) = true → (fin Q.threshDz <=. fin y) = true
    rw [fle, fle, decide_eq_true_eq, decide_eq_true_eq]; intro h; linarith
  by_cases hice : (f.isSome && (decide (2 < f2) && decide (f2 < 10))) = true
  · have hice1 := hff'.trans hice
    have hf12 : f1 = f2 := by
      have : f.isSome = true := (Bool.and_eq_true _ _ ▸ hice).1
      rw [this] at hff; simpa using hff
    subst hf12
    by_cases l1 : (fin d1 <. (-10 : XR)) = true
    · have m2' : (tropGate Q.toXR d.dtype c.isSome f.isSome (fin d2) (fin z2) (fin k2) c2 f1).2 = -1 := by
        rw [m2, ← m1]; simp only [tropGate, if_pos l1]
      have l2 : (fin d2 <. (-10 : XR)) = true := by
        by_contra l2
        simp only [tropGate, if_neg l2, if_pos hice] at m2'
        cases m2'
      simp only [tropGate, if_pos l1, if_pos l2]
      exact zz0
    · have l2 : ¬ (fin d2 <. (-10 : XR)) = true := fun h => l1 (hlow h)
      simp only [tropGate, if_neg l1, if_neg l2, if_pos hice]
      by_cases h1 : ((f1 == 9) && ((Q.toXR.threshKdp <=. fin k1) && (Q.toXR.threshDz <=. fin d1))) = true
      · have h2 : ((f1 == 9) && ((Q.toXR.threshKdp <=. fin k2) && (Q.toXR.threshDz <=. fin d2))) = true := by
          simp only [Bool.and_eq_true] at h1 ⊢
          exact ⟨h1.1, hkp _ _ hk h1.2.1, hdp _ _ hd h1.2.2⟩
        rw [if_pos h1, if_pos h2]
        have hk1 : 0 < k1 := by
          simp only [Bool.and_eq_true] at h1
          have h3 : (fin Q.threshKdp <=. fin k1) = true := h1.2.1
          rw [fle, decide_eq_true_eq] at h3
          exact hQ.kdp.trans_le h3
        exact pair 2 (fun _ => hk1) (by norm_num)
      · rw [if_neg h1]
        by_cases h2 : ((f1 == 9) && ((Q.toXR.threshKdp <=. fin k2) && (Q.toXR.threshDz <=. fin d2))) = true
        · rw [if_pos h2]
          have hk2 : 0 < k2 := by
            simp only [Bool.and_eq_true] at h2
            have h3 : (fin Q.threshKdp <=. fin k2) = true := h2.2.1
            rw [fle, decide_eq_true_eq] at h3
            exact hQ.kdp.trans_le h3
          have := zero_le _ (tropR_nonneg Q hQ d2 z2 k2 2 (fun _ => hk2))
          rw [← tropRate_closed Q hQ _ _ _ _ (fun _ => hk2)] at this
          exact this
        · rw [if_neg h2]; exact zz0
  · have hice1 : ¬ (f.isSome && (decide (2 < f1) && decide (f1 < 10))) = true := by rw [hff']; exact hice
    have hlow1 : (fin d1 <. (-10 : XR)) = true → mm = -1 := by
      intro l; rw [← m1]; simp only [tropGate, if_pos l]
    have val : ∀ (d' z' k' : ℝ) (c' f' : Int), ¬ (f.isSome && (decide (2 < f') && decide (f' < 10))) = true →
        (tropGate Q.toXR d.dtype c.isSome f.isSome (fin d') (fin z') (fin k') c' f').2 = mm →
        (tropGate Q.toXR d.dtype c.isSome f.isSome (fin d') (fin z') (fin k') c' f').1 =
          if mm = -1 then 0 else Common.store d.dtype (tropRate Q.toXR (fin d') (fin z') (fin k') mm) := by
      intro d' z' k' c' f' hni hm
      by_cases l : (fin d' <. (-10 : XR)) = true
      · simp only [tropGate, if_pos l] at hm ⊢
        rw [if_pos hm.symm]
      · simp only [tropGate, if_neg l, if_neg hni] at hm ⊢
        rw [hm]
    rw [val _ _ _ _ _ hice1 m1, val _ _ _ _ _ hice m2]
    by_cases hm1 : mm = -1
    · rw [if_pos hm1, if_pos hm1]; exact zz0
    · rw [if_neg hm1, if_neg hm1]
      have l1 : ¬ (fin d1 <. (-10 : XR)) = true := fun h => hm1 (hlow1 h)
      refine pair mm ?_ q
      intro h12
      have hmt : tropMethod Q.toXR (fin d1) (fin z1) (fin k1) (if c.isSome then some c1 else none) = mm := by
        rw [← m1]; simp only [tropGate, if_neg l1, if_neg hice1]
      exact tropMethod_kdp Q hQ.kdp (fin d1) (fin z1) k1 _ (by rw [hmt]; exact h12)

/-- the published coefficients of a band -/
noncomputable def tropReal (kz zz : ℝ × ℝ × ℝ) (k : ℝ × ℝ) : TropParams ℝ :=
  ⟨38, 0.25, 0.3, 216, 1.39, 126, 1.39, 291, 1.55, k.1, k.2, zz.1, zz.2.1, zz.2.2, kz.1, kz.2.1, kz.2.2⟩

theorem published_S : tropPredef "True" "S" (TropParams.default : TropParams XR) =
    (tropReal (96.5726, 0.9315, -2.1140 / 10) (0.0085, 0.9237, -5.2389 / 10) (59.5202, 0.7451)).toXR := by
  have hneg : ∀ c : ℝ, -fin c / fin 10 = fin (-c / 10) := by intro c; rw [fneg, fdiv (by norm_num)]
  simp only [tropPredef, if_true, TropParams.default, TropParams.toXR, tropReal, fsci, foflit, hneg]

theorem published_C : tropPredef "True" "C" (TropParams.default : TropParams XR) =
    (tropReal (45.6976, 0.8763, -1.6718 / 10) (0.0086, 0.9088, -4.2059 / 10) (34.5703, 0.7331)).toXR := by
  have hneg : ∀ c : ℝ, -fin c / fin 10 = fin (-c / 10) := by intro c; rw [fneg, fdiv (by norm_num)]
  simp only [tropPredef, if_true, String.reduceEq, if_false, TropParams.default, TropParams.toXR, tropReal, fsci, foflit, hneg]

theorem published_X : tropPredef "True" "X" (TropParams.default : TropParams XR) =
    (tropReal (28.1289, 0.9194, -1.6876 / 10) (0.0085, 0.9294, -4.4580 / 10) (21.9729, 0.7221)).toXR := by
  have hneg : ∀ c : ℝ, -fin c / fin 10 = fin (-c / 10) := by intro c; rw [fneg, fdiv (by norm_num)]
  simp only [tropPredef, if_true, String.reduceEq, if_false, TropParams.default, TropParams.toXR, tropReal, fsci, foflit, hneg]

/-- the published coefficients of all three bands have the usual signs -/
theorem published_increasing (band : String) (hb : band ∈ ["S", "C", "X"]) :
    ∃ Q, TropIncreasing Q ∧ tropPredef "True" band (TropParams.default : TropParams XR) = Q.toXR := by
  simp only [List.mem_cons, List.not_mem_nil, or_false] at hb
  rcases hb with rfl | rfl | rfl
  · exact ⟨_, by constructor <;> norm_num [tropReal], published_S⟩
  · exact ⟨_, by constructor <;> norm_num [tropReal], published_C⟩
  · exact ⟨_, by constructor <;> norm_num [tropReal], published_X⟩

/-- **C144 is false**: at 60 dBZ and zero zdr, raising Kdp from 0.2 to 0.3 deg/km switches the S-band gate from the uncapped R(Z) (over 68 mm/h) to R(Kdp)
(under 60 mm/h), so more Kdp gives less rain. -/
theorem C144_full_false : ¬ C144Full := by
  intro hfull
  have hs : SameShape (⟨.float, [2], [fin 60, fin 60]⟩ : NdArray XR) (⟨.float, [2], [fin 0, fin 0]⟩ : NdArray XR)
      (⟨.float, [2], [fin 0.2, fin 0.3]⟩ : NdArray XR) := ⟨rfl, rfl, rfl, rfl, rfl⟩
  obtain ⟨r, m, e, -, -, -, -, -, h⟩ := tropical_gates (TropParams.default : TropParams XR) "True" "S" _ _ _ hs none none (by simp [ClsFits]) (by simp [ClsFits])
  have hQ : TropIncreasing (tropReal (96.5726, 0.9315, -2.1140 / 10) (0.0085, 0.9237, -5.2389 / 10) (59.5202, 0.7451)) := by
    constructor <;> norm_num [tropReal]
  obtain ⟨c1, f1, -, -, g1⟩ := h 0 _ _ _ rfl rfl rfl
  obtain ⟨c2, f2, -, -, g2⟩ := h 1 _ _ _ rfl rfl rfl
  rw [published_S] at g1 g2
  generalize hq : tropReal (96.5726, 0.9315, -2.1140 / 10) (0.0085, 0.9237, -5.2389 / 10) (59.5202, 0.7451) = Q at *
  have e10 : (-10 : XR) = fin (-10) := by rw [foflit, fneg]
  have hl : (fin 60 <. (-10 : XR)) = false := by rw [e10, flt]; simp; norm_num
  have tz : (Q.toXR.threshZdr <=. fin 0) = false := by
    show (fin Q.threshZdr <=. fin 0) = false
    rw [← hq, fle]; norm_num [tropReal]
  have td : (Q.toXR.threshDz <=. fin 60) = true := by
    show (fin Q.threshDz <=. fin 60) = true
    rw [← hq, fle]; norm_num [tropReal]
  have tk1 : (Q.toXR.threshKdp <=. fin 0.2) = false := by
    show (fin Q.threshKdp <=. fin 0.2) = false
    rw [← hq, fle]; norm_num [tropReal]
  have tk2 : (Q.toXR.threshKdp <=. fin 0.3) = true := by
    show (fin Q.threshKdp <=. fin 0.3) = true
    rw [← hq, fle]; norm_num [tropReal]
  have g1a := congrArg Prod.fst g1
  have g2a := congrArg Prod.fst g2
  simp only [tropGate, tropMethod, hl, tz, td, tk1, tk2, Option.isSome_none, Bool.false_and, Bool.and_false, Bool.and_true, Bool.false_eq_true, if_false,
    if_true, Int.reduceNeg, reduceCtorEq, Common.store] at g1a g2a
  rw [tropRate_closed Q hQ _ _ _ _ (by norm_num)] at g1a
  rw [tropRate_closed Q hQ _ _ _ _ (by norm_num)] at g2a
  have key := hfull "S" _ _ _ r none none m (by simp) e 0 1 60 60 0 0.2 0.3 _ _ rfl rfl rfl rfl rfl rfl rfl rfl le_rfl (by norm_num) g1a g2a
  simp only [tropR, Int.reduceEq, if_false, if_true, ← hq, tropReal] at key
  have a1 : (68 : ℝ) ≤ (10 ^ ((60 : ℝ) / 10) / 216) ^ (1 / 1.39 : ℝ) := by
    have : (10 : ℝ) ^ ((60 : ℝ) / 10) = 10 ^ 6 := by
      rw [show (60 : ℝ) / 10 = ((6 : ℕ) : ℝ) by norm_num, Real.rpow_natCast]
    rw [this]
    calc (68 : ℝ) = ((68 : ℝ) ^ 2) ^ (1 / 2 : ℝ) := by
          rw [← Real.sqrt_eq_rpow, Real.sqrt_sq (by norm_num)]
      _ ≤ ((10 : ℝ) ^ 6 / 216) ^ (1 / 2 : ℝ) := Real.rpow_le_rpow (by norm_num) (by norm_num) (by norm_num)
      _ ≤ _ := Real.rpow_le_rpow_of_exponent_le (by norm_num) (by norm_num)
  have a2 : (59.5202 : ℝ) * 0.3 ^ (0.7451 : ℝ) ≤ 60 := by
    have : (0.3 : ℝ) ^ (0.7451 : ℝ) ≤ 1 := Real.rpow_le_one (by norm_num) (by norm_num) (by norm_num)
    nlinarith
  linarith

/-- non-vacuity of **C144**: four S-band gates, two under R(Z) and two under R(Kdp), ordered as the theorem says -/
example : ∃ (r : NdArray XR) (m : NdArray Int), calcBlendedRainTropical TropParams.default "True" "S"
      (some (.arr ⟨.float, [4], [fin 20, fin 30, fin 45, fin 50]⟩)) (some (.arr ⟨.float, [4], [fin 0, fin 0, fin 0, fin 0]⟩))
      (some (.arr ⟨.float, [4], [fin 0, fin 0.1, fin 1, fin 2]⟩)) none none = .ok (some (.arr r m none)) ∧
    (∃ x y : ℝ, r.data[0]? = some (fin x) ∧ r.data[1]? = some (fin y) ∧ x ≤ y) ∧
    (∃ x y : ℝ, r.data[2]? = some (fin x) ∧ r.data[3]? = some (fin y) ∧ x ≤ y) := by
  have hQ : TropIncreasing (tropReal (96.5726, 0.9315, -2.1140 / 10) (0.0085, 0.9237, -5.2389 / 10) (59.5202, 0.7451)) := by
    constructor <;> norm_num [tropReal]
  have hs : SameShape (⟨.float, [4], [fin 20, fin 30, fin 45, fin 50]⟩ : NdArray XR) (⟨.float, [4], [fin 0, fin 0, fin 0, fin 0]⟩ : NdArray XR)
      (⟨.float, [4], [fin 0, fin 0.1, fin 1, fin 2]⟩ : NdArray XR) := ⟨rfl, rfl, rfl, rfl, rfl⟩
  obtain ⟨r, m, e, h⟩ := C144_same_method_partial (TropParams.default : TropParams XR) "True" "S" _ hQ published_S _ _ _ hs none none (by simp [ClsFits]) (by simp [ClsFits])
  obtain ⟨r', m', e', -, -, -, -, -, h'⟩ := tropical_gates (TropParams.default : TropParams XR) "True" "S" _ _ _ hs none none (by simp [ClsFits]) (by simp [ClsFits])
  rw [e] at e'
  have e'' := Except.ok.inj e'
  simp only [Option.some.injEq, Ret.arr.injEq] at e''
  obtain ⟨rfl, rfl, -⟩ := e''
  have e10 : (-10 : XR) = fin (-10) := by rw [foflit, fneg]
  have hm : ∀ (i : Nat) (dv kv : ℝ) (n : Int), i < 4 → (⟨.float, [4], [fin 20, fin 30, fin 45, fin 50]⟩ : NdArray XR).data[i]? = some (fin dv) →
      (⟨.float, [4], [fin 0, fin 0, fin 0, fin 0]⟩ : NdArray XR).data[i]? = some (fin 0) →
      (⟨.float, [4], [fin 0, fin 0.1, fin 1, fin 2]⟩ : NdArray XR).data[i]? = some (fin kv) → -10 ≤ dv →
      (if 38 ≤ dv ∧ 0.3 ≤ kv then n = 2 else n = 4) → m.data[i]? = some n := by
    intro i dv kv n _ p1 p2 p3 hdv hn
    obtain ⟨c1, f1, -, -, g1⟩ := h' i _ _ _ p1 p2 p3
    rw [published_S] at g1
    have g1b := congrArg Prod.snd g1
    have hl : (fin dv <. (-10 : XR)) = false := by rw [e10, flt]; simpa using hdv
    have tz : (fin 0.25 <=. fin 0) = false := by rw [fle]; norm_num
    have td : (fin 38 <=. fin dv) = decide (38 ≤ dv) := by rw [fle]
    have tk : (fin 0.3 <=. fin kv) = decide (0.3 ≤ kv) := by rw [fle]
    simp only [tropGate, tropMethod, TropParams.toXR, tropReal, hl, tz, td, tk, Option.isSome_none, Bool.false_and, Bool.false_eq_true, if_false] at g1b
    rw [g1b]
    by_cases hc : 38 ≤ dv ∧ 0.3 ≤ kv
    · rw [if_pos hc] at hn; subst hn; simp [hc.1, hc.2]
    · rw [if_neg hc] at hn; subst hn
      have : (decide (38 ≤ dv) && decide (0.3 ≤ kv)) = false := by
        rw [Bool.and_eq_false_iff]; simp only [decide_eq_false_iff_not]; tauto
      simp [this]
  refine ⟨r, m, e, h 0 1 20 30 0 0 0 0.1 rfl rfl rfl rfl rfl rfl rfl rfl (by norm_num) (by norm_num) 4 ?_ ?_ (by norm_num),
    h 2 3 45 50 0 0 1 2 rfl rfl rfl rfl rfl rfl rfl rfl (by norm_num) (by norm_num) 2 ?_ ?_ (by norm_num)⟩
  · exact hm 0 20 0 4 (by norm_num) rfl rfl rfl (by norm_num) (by norm_num)
  · exact hm 1 30 0.1 4 (by norm_num) rfl rfl rfl (by norm_num) (by norm_num)
  · exact hm 2 45 1 2 (by norm_num) rfl rfl rfl (by norm_num) (by norm_num)
  · exact hm 3 50 2 2 (by norm_num) rfl rfl rfl (by norm_num) (by norm_num)

end Csu.Rain
