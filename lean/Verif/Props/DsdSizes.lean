import Verif.Model.DsdSizes
import Verif.Props.RainSizes2
import Verif.Props.Dsd
/-!
# Property C162: drop-size fields of different lengths

`calc_dsd` on one-dimensional arrays returns a result exactly when the arrays the retrieval uses have one length; selecting the gates of a method, computing
on the selection and writing back is computing gate by gate.
-/
namespace Csu.Dsd
open Csu PyFloat Csu.Common Csu.LiquidIce Csu.Rain
variable {α : Type} [PyFloat α]

theorem get_map {β γ : Type} (f : β → γ) : ∀ (m : List Bool) (s : List β), (maskGet m s).map f = maskGet m (s.map f)
  | [], s => by simp [maskGet]
  | _ :: _, [] => by simp [maskGet]
  | c :: m, x :: s => by
    have ih := get_map f m s
    cases c <;> simp_all [maskGet]

theorem get_zip {β γ δ : Type} (f : β → γ → δ) : ∀ (m : List Bool) (s : List β) (t : List γ), s.length = t.length →
    List.zipWith f (maskGet m s) (maskGet m t) = maskGet m (List.zipWith f s t)
  | [], s, t, _ => by simp [maskGet]
  | _ :: _, [], [], _ => by simp [maskGet]
  | c :: m, x :: s, y :: t, h => by
    have ih := get_zip f m s t (by simpa using h)
    cases c <;> simp_all [maskGet]

theorem get_length {β : Type} : ∀ (m : List Bool) (s : List β), m.length = s.length → (maskGet m s).length = m.countP id
  | [], [], _ => rfl
  | c :: m, x :: s, h => by
    have ih := get_length m s (by simpa using h)
    cases c <;> simp_all [maskGet]

theorem put_get {β : Type} : ∀ (m : List Bool) (s a : List β), m.length = s.length → m.length = a.length →
    maskPut m (maskGet m s) a = maskCopy m s a
  | [], [], [], _, _ => rfl
  | c :: m, x :: s, y :: a, h, h' => by
    have ih := put_get m s a (by simpa using h) (by simpa using h')
    cases c <;> simp_all [maskGet, maskCopy, maskPut]

theorem getAny_eq {β : Type} {m : List Bool} {s : List β} (h : m.length = s.length) : getAny m s = .ok (maskGet m s) := if_pos h

theorem putAny_eq {β : Type} {m : List Bool} {s a : List β} (h : m.length = s.length) (h' : m.length = a.length) :
    putAny m (maskGet m s) a = .ok (maskCopy m s a) := by
  unfold putAny
  rw [if_neg (by simpa using h'), if_pos (get_length m s h), put_get m s a h h']

theorem put3_eq {m : List Bool} {s : List (α × α × α)} {o : Out α} (h : m.length = s.length) (h1 : m.length = o.d0.length) (h2 : m.length = o.nw.length)
    (h3 : m.length = o.mu.length) : put3 m (maskGet m s) o = .ok (assign3 m s o) := by
  unfold put3
  rw [get_map, get_map, get_map, putAny_eq (by simpa using h) h1, except_ok, putAny_eq (by simpa using h) h2, except_ok,
    putAny_eq (by simpa using h) h3]
  rfl

theorem put_len {β : Type} {m : List Bool} {v a r : List β} (h : putAny m v a = .ok r) : m.length = a.length := by
  unfold putAny at h
  split_ifs at h with h1
  · simpa using h1
  · simpa using h1

theorem get_len {β : Type} {m : List Bool} {a r : List β} (h : getAny m a = .ok r) : m.length = a.length := by
  unfold getAny at h
  split_ifs at h with h1
  exact h1

/-- the three outputs have `n` gates -/
def Len (n : Nat) (o : Out α) : Prop := o.d0.length = n ∧ o.nw.length = n ∧ o.mu.length = n

theorem assign3_len {n : Nat} {m : List Bool} {s : List (α × α × α)} {o : Out α} (h : m.length = n) (h' : s.length = n) (ho : Len n o) :
    Len n (assign3 m s o) := by
  obtain ⟨a, b, c⟩ := ho
  simp [Len, assign3, maskCopy, h, h', a, b, c]

theorem put3_ok {n : Nat} {m : List Bool} {s : List (α × α × α)} {o : Out α} (h : m.length = n) (h' : s.length = n) (ho : Len n o) :
    put3 m (maskGet m s) o = .ok (assign3 m s o) :=
  put3_eq (h.trans h'.symm) (h.trans ho.1.symm) (h.trans ho.2.1.symm) (h.trans ho.2.2.symm)

theorem bcast_andd {a b : List Bool} {n : Nat} (h : a.length = n) (h' : b.length = n) : bcast (· && ·) a b = .ok (logicalAnd a b) :=
  bcast_eq _ _ _ (h.trans h'.symm)

theorem zip3_len {β γ δ : Type} {n : Nat} (f : β → γ → δ) {a : List β} {b : List γ} (h : a.length = n) (h' : b.length = n) :
    (List.zipWith f a b).length = n := by simp [h, h']

theorem step_four {m : List Bool} {dz zeta : List α} {o : Out α} {n : Nat} (hm : m.length = n) (hd : dz.length = n) (hz : zeta.length = n) (ho : Len n o) :
    step4 m dz zeta o = .ok (assign3 m (List.zipWith method4 dz zeta) o) := by
  unfold step4
  rw [getAny_eq (hm.trans hd.symm), except_ok, getAny_eq (hm.trans hz.symm), except_ok, get_zip _ _ _ _ (hd.trans hz.symm)]
  exact put3_ok hm (zip3_len _ hd hz) ho

theorem step_three {m : List Bool} {dz kdp zdr zeta : List α} {o : Out α} {n : Nat} (hm : m.length = n) (hd : dz.length = n) (hk : kdp.length = n)
    (hr : zdr.length = n) (hz : zeta.length = n) (ho : Len n o) :
    step3 m dz kdp zdr zeta o = .ok (assign3 m (List.zipWith (fun d (p : α × α) => method3 d p.1 p.2) dz (List.zip zdr zeta)) o) := by
  unfold step3
  have hzz : (List.zip zdr zeta).length = n := zip3_len Prod.mk hr hz
  have e : List.zip (maskGet m zdr) (maskGet m zeta) = maskGet m (List.zip zdr zeta) := get_zip Prod.mk m zdr zeta (hr.trans hz.symm)
  rw [getAny_eq (hm.trans hd.symm), except_ok, getAny_eq (hm.trans hk.symm), except_ok, getAny_eq (hm.trans hr.symm), except_ok,
    getAny_eq (hm.trans hz.symm), except_ok, e, get_zip _ _ _ _ (hd.trans hzz.symm)]
  exact put3_ok hm (zip3_len _ hd hzz) ho

theorem step_two {m : List Bool} {dz kdp zdr : List α} {o : Out α} {n : Nat} (hm : m.length = n) (hd : dz.length = n) (hk : kdp.length = n)
    (hr : zdr.length = n) (ho : Len n o) : step2 m dz kdp zdr o = .ok (assign3 m (List.zipWith method2 dz zdr) o) := by
  unfold step2
  rw [getAny_eq (hm.trans hd.symm), except_ok, getAny_eq (hm.trans hk.symm), except_ok, getAny_eq (hm.trans hr.symm), except_ok,
    get_zip _ _ _ _ (hd.trans hr.symm)]
  exact put3_ok hm (zip3_len _ hd hr) ho

theorem step_one {m : List Bool} {dz kdp zeta beta : List α} {o : Out α} {n : Nat} (hm : m.length = n) (hd : dz.length = n) (hk : kdp.length = n)
    (hr : zeta.length = n) (hz : beta.length = n) (ho : Len n o) :
    step1 m dz kdp zeta beta o = .ok (assign3 m (List.zipWith (fun d (p : α × α) => method1 d p.1 p.2) dz (List.zip zeta beta)) o) := by
  unfold step1
  have hzz : (List.zip zeta beta).length = n := zip3_len Prod.mk hr hz
  have e : List.zip (maskGet m zeta) (maskGet m beta) = maskGet m (List.zip zeta beta) := get_zip Prod.mk m zeta beta (hr.trans hz.symm)
  rw [getAny_eq (hm.trans hd.symm), except_ok, getAny_eq (hm.trans hk.symm), except_ok, getAny_eq (hm.trans hr.symm), except_ok,
    getAny_eq (hm.trans hz.symm), except_ok, e, get_zip _ _ _ _ (hd.trans hzz.symm)]
  exact put3_ok hm (zip3_len _ hd hzz) ho

theorem beta_eq : ∀ (d k z : List α), List.zipWith (fun x z => x * z ^ (0.965 : α))
    (List.zipWith (fun d k => (2.08 : α) * d ^ (-0.365 : α) * k ^ (0.38 : α)) d k) z =
    List.zipWith (fun d (p : α × α) => calcBeta d p.1 p.2) d (List.zip k z)
  | [], _, _ => by simp
  | _ :: _, [], _ => by simp
  | _ :: _, _ :: _, [] => by simp
  | a :: d, b :: k, c :: z => by
    have ih := beta_eq d k z
    simp only [List.zipWith_cons_cons, List.zip_cons_cons, ih, calcBeta]

theorem len_all3 {n : Nat} {a b c : List Bool} (h : a.length = n) (h' : b.length = n) (h'' : c.length = n) : (logicalAnd (logicalAnd a b) c).length = n := by
  simp [logicalAnd, h, h', h'']

theorem len_all2 {n : Nat} {a b : List Bool} (h : a.length = n) (h' : b.length = n) : (logicalAnd a b).length = n := by
  simp [logicalAnd, h, h']

/-- the 2004 retrieval with selections, on arrays of one length -/
theorem sband2004_eq {dz zdr kdp : List α} {n : Nat} (hd : dz.length = n) (hz : zdr.length = n) (hk : kdp.length = n) :
    sband2004Sizes dz zdr kdp = .ok (sband2004 dz zdr kdp) := by
  have lm : ∀ {β γ : Type} (f : β → γ) {l : List β}, l.length = n → (l.map f).length = n := fun f l h => by simpa using h
  have hA := fun (p q r : α → Bool) => len_all3 (lm p hd) (lm q hz) (lm r hk)
  have hB := fun (p q r : α → Bool) => len_all3 (lm p hz) (lm q hz) (lm r hk)
  have hC := fun (p q : α → Bool) => len_all2 (lm p hk) (lm q hz)
  have hD := fun (p q : α → Bool) => len_all2 (lm p hz) (lm q hz)
  have hE := fun (p q : α → Bool) => len_all2 (lm p hd) (lm q hz)
  have hld := lm (linearize (α := α)) hd
  have hlz := lm (linearize (α := α)) hz
  have hz0 := lm (0 * · : α → α) hd
  have hbeta : (List.zipWith (fun d (p : α × α) => calcBeta d p.1 p.2) (dz.map linearize) (List.zip kdp (zdr.map linearize))).length = n := by
    simp [hd, hz, hk]
  have s1 : (List.zipWith (fun d (p : α × α) => method1 d p.1 p.2) (dz.map linearize) (List.zip (zdr.map linearize)
      (List.zipWith (fun d (p : α × α) => calcBeta d p.1 p.2) (dz.map linearize) (List.zip kdp (zdr.map linearize))))).length = n := by
    simp [hd, hz, hk]
  have s2 : (List.zipWith method2 (dz.map linearize) zdr).length = n := by simp [hd, hz]
  have s3 : (List.zipWith (fun d (p : α × α) => method3 d p.1 p.2) (dz.map linearize) (List.zip zdr (zdr.map linearize))).length = n := by
    simp [hd, hz]
  have o0 : Len n (⟨dz.map (0 * ·), dz.map (0 * ·), dz.map (0 * ·)⟩ : Out α) := ⟨hz0, hz0, hz0⟩
  have o1 := assign3_len (hA (· >=. 35) (· >=. 0.2) (· >=. 0.3)) s1 o0
  have o2 := assign3_len (hC (· <. 0.3) (· >=. 0.5)) s2 o1
  have o3 := assign3_len (hB (· >=. 0.2) (· <. 0.5) (· <. 0.3)) s3 o2
  unfold sband2004Sizes sband2004
  dsimp only
  rw [bcast_eq _ _ _ (hld.trans hk.symm), except_ok, bcast_eq _ _ _ ((zip3_len _ hld hk).trans hlz.symm), except_ok, beta_eq,
    bcast_andd (lm _ hd) (lm _ hz), except_ok, bcast_andd (hE _ _) (lm _ hk), except_ok, step_one (hA _ _ _) hld hk hlz hbeta o0, except_ok,
    bcast_andd (lm _ hk) (lm _ hz), except_ok, step_two (hC _ _) hld hk hz o1, except_ok,
    bcast_andd (lm _ hz) (lm _ hz), except_ok, bcast_andd (hD _ _) (lm _ hk), except_ok, step_three (hB _ _ _) hld hk hz hlz o2, except_ok,
    bcast_andd (lm _ hz) (lm _ hz), except_ok, bcast_andd (hD _ _) (lm _ hk), except_ok, step_four (hB _ _ _) hld hlz o3]

/-- select, map, write back -/
theorem get_put_map {β γ : Type} {m : List Bool} {s : List β} {a : List γ} (f : β → γ) (h : m.length = s.length) (h' : m.length = a.length) :
    putAny m ((maskGet m s).map f) a = .ok (maskCopy m (s.map f) a) := by
  rw [get_map, putAny_eq (by simpa using h) h']

theorem copy_n {β : Type} {n : Nat} {m : List Bool} {s a : List β} (h : m.length = n) (h' : s.length = n) (h'' : a.length = n) :
    (maskCopy m s a).length = n := by simp [maskCopy, h, h', h'']

theorem sband2013_eq {dz zdr : List α} (h : zdr.length = dz.length) : sband2013Sizes dz zdr = .ok (sband2013 dz zdr) := by
  have lm : ∀ {β γ : Type} (f : β → γ) {l : List β}, l.length = dz.length → (l.map f).length = dz.length := fun f l h => by simpa using h
  unfold sband2013Sizes sband2013
  dsimp only
  rw [getAny_eq (by simp), except_ok, get_put_map _ (by simp) (by simp [h]), except_ok, getAny_eq (by simp), except_ok,
    get_put_map _ (by simp) (by simp [h, maskCopy]), except_ok, bcast_eq _ _ _ (by simp [h, maskCopy])]
  rfl

theorem cband2009_eq {dz zdr : List α} (h : zdr.length = dz.length) : cband2009Sizes dz zdr = .ok (cband2009 dz zdr) := by
  unfold cband2009Sizes cband2009
  dsimp only
  rw [bcast_andd (n := zdr.length) (by simp) (by simp), except_ok,
    getAny_eq (by simp [logicalAnd]), except_ok, get_put_map _ (by simp [logicalAnd]) (by simp [h, logicalAnd]), except_ok, getAny_eq (by simp), except_ok,
    get_put_map _ (by simp) (by simp [h, maskCopy, logicalAnd]), except_ok, bcast_eq _ _ _ (by simp [h, maskCopy, logicalAnd])]
  rfl

theorem sband2013_bad {dz zdr : List α} (h : zdr.length ≠ dz.length) : sband2013Sizes dz zdr = .error .indexError := by
  unfold sband2013Sizes
  dsimp only
  rw [getAny_eq (by simp), except_ok]
  unfold putAny
  rw [if_pos (by simpa using h)]
  rfl

theorem cband2009_bad {dz zdr : List α} (h : zdr.length ≠ dz.length) : cband2009Sizes dz zdr = .error .indexError := by
  unfold cband2009Sizes
  dsimp only
  rw [bcast_andd (n := zdr.length) (by simp) (by simp), except_ok, getAny_eq (by simp [logicalAnd]), except_ok]
  unfold putAny
  rw [if_pos (by simpa [logicalAnd] using h)]
  rfl

/-- what two lengths broadcast to -/
def bcastLen (a b : Nat) : Option Nat := if a = b then some a else if a = 1 then some b else if b = 1 then some a else none

theorem bcast_some {β γ δ : Type} (f : β → γ → δ) {l : List β} {l' : List γ} {n : Nat} (h : bcastLen l.length l'.length = some n) :
    ∃ r, bcast f l l' = .ok r ∧ r.length = n := by
  unfold bcastLen at h
  unfold bcast
  by_cases e : l.length = l'.length
  · rw [if_pos e]
    rw [if_pos e] at h
    cases h
    exact ⟨_, rfl, by simp [e]⟩
  · rw [if_neg e]
    rw [if_neg e] at h
    match l, l' with
    | [x], l' => simp at h; exact ⟨_, rfl, by simp [h]⟩
    | [], [y] => simp at h; exact ⟨_, rfl, by simp [← h]⟩
    | a :: b :: l, [y] => simp at h; exact ⟨_, rfl, by simp [← h]⟩
    | [], [] => simp at e
    | [], a :: b :: l' => simp at h
    | a :: b :: l, [] => simp at h
    | a :: b :: l, c :: d :: l' => simp at h

theorem bcast_none {β γ δ : Type} (f : β → γ → δ) {l : List β} {l' : List γ} (h : bcastLen l.length l'.length = none) :
    bcast f l l' = .error .valueError := by
  unfold bcastLen at h
  unfold bcast
  split_ifs at h with e1 e2 e3
  rw [if_neg e1]
  match l, l' with
  | [x], l' => simp at e2
  | [], [y] => simp at e3
  | a :: b :: l, [y] => simp at e3
  | [], [] => simp at e1
  | [], a :: b :: l' => rfl
  | a :: b :: l, [] => rfl
  | a :: b :: l, c :: d :: l' => rfl

/-- what three lengths broadcast to -/
def bcastLen3 (a b c : Nat) : Option Nat := (bcastLen a b).bind (bcastLen · c)

theorem len_swap {a b c n : Nat} (h : bcastLen3 a b c = some n) : ∃ p, bcastLen a c = some p ∧ bcastLen p b = some n := by
  unfold bcastLen3 bcastLen at *
  by_cases h1 : a = b <;> by_cases h2 : a = 1 <;> by_cases h3 : b = 1 <;> by_cases h4 : a = c <;> by_cases h5 : c = 1 <;> by_cases h6 : b = c <;>
    simp_all

/-- the 2004 retrieval on arrays that do not have one length -/
theorem sband2004_bad {dz zdr kdp : List α} (h : ¬ (zdr.length = dz.length ∧ kdp.length = dz.length)) :
    sband2004Sizes dz zdr kdp =
      .error (if bcastLen3 dz.length kdp.length zdr.length = none then .valueError else .indexError) := by
  unfold sband2004Sizes
  dsimp only
  cases h3 : bcastLen3 dz.length kdp.length zdr.length with
  | none =>
    rw [if_pos rfl]
    unfold bcastLen3 at h3
    cases h2 : bcastLen dz.length kdp.length with
    | none => rw [bcast_none _ (by simpa using h2)]; rfl
    | some p =>
      rw [h2] at h3
      obtain ⟨r, hr, hl⟩ := bcast_some (fun d k => (2.08 : α) * d ^ (-0.365 : α) * k ^ (0.38 : α)) (l := dz.map linearize) (l' := kdp) (n := p) (by simpa using h2)
      rw [hr, except_ok, bcast_none _ (by simpa [hl] using h3)]
      rfl
  | some n =>
    rw [if_neg (by simp)]
    have h3' := h3
    unfold bcastLen3 at h3'
    cases h2 : bcastLen dz.length kdp.length with
    | none => rw [h2] at h3'; cases h3'
    | some p =>
      rw [h2] at h3'
      obtain ⟨r, hr, hl⟩ := bcast_some (fun d k => (2.08 : α) * d ^ (-0.365 : α) * k ^ (0.38 : α)) (l := dz.map linearize) (l' := kdp) (n := p) (by simpa using h2)
      obtain ⟨b, hb, hbl⟩ := bcast_some (fun x z => x * z ^ (0.965 : α)) (l := r) (l' := zdr.map linearize) (n := n) (by simpa [hl] using h3')
      obtain ⟨q, hq, hq'⟩ := len_swap h3
      obtain ⟨m, hm, hml⟩ := bcast_some (· && ·) (l := dz.map (· >=. 35)) (l' := zdr.map (· >=. 0.2)) (n := q) (by simpa using hq)
      obtain ⟨m', hm', hml'⟩ := bcast_some (· && ·) (l := m) (l' := kdp.map (· >=. 0.3)) (n := n) (by simpa [hml] using hq')
      rw [hr, except_ok, hb, except_ok, hm, except_ok, hm', except_ok]
      have : step1 m' (dz.map linearize) kdp (zdr.map linearize) b ⟨dz.map (0 * ·), dz.map (0 * ·), dz.map (0 * ·)⟩ = .error .indexError := by
        unfold step1 getAny
        by_cases a1 : n = dz.length
        · rw [if_pos (by simpa [hml'] using a1), except_ok]
          by_cases a2 : n = kdp.length
          · rw [if_pos (by simpa [hml'] using a2), except_ok, if_neg (by simp [hml']; omega)]
            rfl
          · rw [if_neg (by simpa [hml'] using a2)]; rfl
        · rw [if_neg (by simpa [hml'] using a1)]; rfl
      rw [this]
      rfl

/-- the lengths `calc_dsd` accepts: ZDR as long as the reflectivity, and KDP too when the retrieval uses it (method 2004 at S band) -/
def DsdFits (band method : String) (dz zdr kdp : List α) : Prop :=
  zdr.length = dz.length ∧ (band = "S" ∧ method ≠ "2013" → kdp.length = dz.length)

/-- **C162.** At S and C band, one-dimensional arrays give a result exactly when ZDR has as many gates as the reflectivity and, for the 2004 retrieval, KDP
too; one element is not repeated. -/
theorem C162_result_iff (band method : String) (hb : band = "S" ∨ band = "C") (dz zdr kdp : List α) :
    (∃ v, calcDsd1d band method dz zdr kdp = .ok v) ↔ DsdFits band method dz zdr kdp := by
  unfold calcDsd1d DsdFits
  by_cases h1 : band = "S"
  · by_cases h2 : method = "2013"
    · rw [if_pos h1, if_pos h2]
      by_cases h : zdr.length = dz.length
      · rw [sband2013_eq h]; simp [h, h2, Except.map]
      · rw [sband2013_bad h]; simp [h, Except.map]
    · rw [if_pos h1, if_neg h2]
      by_cases h : zdr.length = dz.length ∧ kdp.length = dz.length
      · rw [sband2004_eq rfl h.1 h.2]; simp [h, Except.map]
      · rw [sband2004_bad h]; simp only [Except.map]
        constructor
        · rintro ⟨v, hv⟩; cases hv
        · intro h'; exact absurd ⟨h'.1, h'.2 ⟨h1, h2⟩⟩ h
  · have h2 := hb.resolve_left h1
    rw [if_neg h1, if_pos h2]
    by_cases h : zdr.length = dz.length
    · rw [cband2009_eq h]; simp [h, h1, Except.map]
    · rw [cband2009_bad h]; simp [h, Except.map]

/-- **C162.** Arrays that do not fit raise: IndexError, except that arrays the 2004 retrieval cannot broadcast together raise ValueError. -/
theorem C162_unfit_error (band method : String) (hb : band = "S" ∨ band = "C") (dz zdr kdp : List α) (h : ¬ DsdFits band method dz zdr kdp) :
    calcDsd1d band method dz zdr kdp =
      .error (if band = "S" ∧ method ≠ "2013" ∧ bcastLen3 dz.length kdp.length zdr.length = none then .valueError else .indexError) := by
  unfold calcDsd1d
  unfold DsdFits at h
  by_cases h1 : band = "S"
  · by_cases h2 : method = "2013"
    · rw [if_pos h1, if_pos h2, sband2013_bad (fun e => h ⟨e, fun h' => absurd h2 h'.2⟩), if_neg (fun h' => h'.2.1 h2)]; rfl
    · rw [if_pos h1, if_neg h2, sband2004_bad (fun e => h ⟨e.1, fun _ => e.2⟩)]
      simp [h1, h2, Except.map]
  · have h2 := hb.resolve_left h1
    rw [if_neg h1, if_pos h2, cband2009_bad (fun e => h ⟨e, fun h' => absurd h'.1 h1⟩), if_neg (fun h' => h1 h'.1)]; rfl

/-- the outputs of the retrieval have the length of the reflectivity -/
theorem dispatch_len {band method : String} {dz zdr kdp : List α} (hz : zdr.length = dz.length) (hk : band = "S" ∧ method ≠ "2013" → kdp.length = dz.length)
    {o : Out α} (h : dispatch band method dz zdr kdp = some o) : Len dz.length o := by
  unfold dispatch at h
  split_ifs at h with h1 h2 h3
  · cases h
    simp [Len, sband2013, maskCopy, hz]
  · cases h
    have hk := hk ⟨h1, h2⟩
    simp [Len, sband2004, assign3, maskCopy, logicalAnd, hz, hk]
  · cases h
    simp [Len, cband2009, maskCopy, hz, logicalAnd]

/-- **C162.** On fitting lengths the statement-by-statement call (selecting, computing on the selection, writing back) is the gate-by-gate model of
`Model/Dsd.lean`; the KDP the retrieval does not use may be replaced by anything. -/
theorem C162_fit (band method : String) (t t' t'' : DType) (dz zdr kdp k' : List α) (h : DsdFits band method dz zdr kdp) (hl : k'.length = dz.length)
    (hk : band = "S" ∧ method ≠ "2013" → k' = kdp) :
    calcDsd1d band method dz zdr kdp =
      calcDsd band method (some (.arr ⟨t, [dz.length], dz⟩)) (some (.arr ⟨t', [dz.length], zdr⟩)) (some (.arr ⟨t'', [dz.length], k'⟩)) := by
  have hd : calcDsd1d band method dz zdr kdp = .ok ((dispatch band method dz zdr k').bind arrays1d) := by
    unfold calcDsd1d dispatch
    by_cases h1 : band = "S"
    · by_cases h2 : method = "2013"
      · rw [if_pos h1, if_pos h2, if_pos h1, if_pos h2, sband2013_eq h.1]; rfl
      · rw [if_pos h1, if_neg h2, if_pos h1, if_neg h2, sband2004_eq rfl h.1 (h.2 ⟨h1, h2⟩), hk ⟨h1, h2⟩]; rfl
    · by_cases h2 : band = "C"
      · rw [if_neg h1, if_pos h2, if_neg h1, if_pos h2, cband2009_eq h.1]; rfl
      · rw [if_neg h1, if_neg h2, if_neg h1, if_neg h2]; rfl
  rw [hd]
  simp only [calcDsd, and_self, if_true]
  cases hc : dispatch band method dz zdr k' with
  | none => rfl
  | some o =>
    obtain ⟨a, b, c⟩ := dispatch_len h.1 (fun _ => hl) hc
    simp only [Option.bind_some, arrays1d, a, b, c]

/-- **C162.** At an unknown band the call returns None whatever the lengths. -/
theorem C162_other_band (band method : String) (hb : band ≠ "S" ∧ band ≠ "C") (dz zdr kdp : List α) :
    calcDsd1d band method dz zdr kdp = .ok none := by
  unfold calcDsd1d; rw [if_neg hb.1, if_neg hb.2]

-- two gates fit at C band with a KDP array of five; one ZDR value for two gates does not
example (a b c : α) (k : List α) : DsdFits "C" "2009" [a, b] [b, c] k := ⟨rfl, fun h => by simp at h⟩
example (a b c : α) (k : List α) : calcDsd1d "S" "2013" [a, b] [c] k = .error .indexError := by
  rw [C162_unfit_error _ _ (.inl rfl) _ _ _ (by simp [DsdFits])]
  simp
example (a b c : α) : calcDsd1d "S" "2004" [a, b] [a, b, c] [a] = .error .valueError := by
  rw [C162_unfit_error _ _ (.inl rfl) _ _ _ (by simp [DsdFits])]
  simp [bcastLen3, bcastLen]
example (a b c : α) : calcDsd1d "S" "2004" [a, b] [a, b] [c] = .error .indexError := by
  rw [C162_unfit_error _ _ (.inl rfl) _ _ _ (by simp [DsdFits])]
  simp [bcastLen3, bcastLen]

end Csu.Dsd
