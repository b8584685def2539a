import Verif.Model.Misc
import Verif.Lemmas.Lists
import Mathlib.Data.Finset.Card
import Mathlib.Data.Finset.Range
import Mathlib.Data.Finset.Max
import Mathlib.Order.Interval.Finset.Nat
/-! Helper lemmas for the csu_misc properties. -/
namespace Csu.Misc
open Csu PyFloat
variable {α : Type} [PyFloat α]

theorem logicalAnd_get (a b : List Bool) (i : Nat) :
    (logicalAnd a b)[i]? = some true ↔ a[i]? = some true ∧ b[i]? = some true := by
  simp only [logicalAnd, List.getElem?_zipWith]
  cases a[i]? <;> cases b[i]? <;> simp

theorem logicalOr_get (a b : List Bool) (h : a.length = b.length) (i : Nat) :
    (logicalOr a b)[i]? = some true ↔ a[i]? = some true ∨ b[i]? = some true := by
  simp only [logicalOr, List.getElem?_zipWith]
  rcases Nat.lt_or_ge i a.length with hi | hi
  · have hb : i < b.length := h ▸ hi
    simp [hi, hb]
  · have hb : b.length ≤ i := h ▸ hi
    simp [hi, hb]

theorem logicalOr_length (a b : List Bool) (h : a.length = b.length) : (logicalOr a b).length = a.length := by
  simp [logicalOr, h]

theorem foldl_or (cs : List (List Bool)) (m : List Bool) (h : ∀ c ∈ cs, c.length = m.length) :
    (cs.foldl logicalOr m).length = m.length ∧
    ∀ i : Nat, (cs.foldl logicalOr m)[i]? = some true ↔ m[i]? = some true ∨ ∃ c ∈ cs, c[i]? = some true := by
  induction cs generalizing m with
  | nil => simp
  | cons c cs ih =>
    have hc : c.length = m.length := h c (by simp)
    have hl := logicalOr_length m c hc.symm
    obtain ⟨h1, h2⟩ := ih (logicalOr m c) (by intro d hd; rw [hl]; exact h d (by simp [hd]))
    refine ⟨by simpa [hl] using h1, fun i => ?_⟩
    simp only [List.foldl_cons, h2, logicalOr_get m c hc.symm, List.mem_cons, exists_eq_or_imp]
    tauto

/-- What the threshold loop collects. -/
theorem insectConds_ok (dz zdr : List α) (rg : List (α × α)) (ths : List α) (i : Nat)
    (hlen : dz.length = zdr.length) (h : i + ths.length ≤ rg.length) :
    ∃ cs, insectConds dz zdr rg i ths = .ok cs ∧ (∀ c ∈ cs, c.length = dz.length) ∧
      ∀ j : Nat, (∃ c ∈ cs, c[j]? = some true) ↔
        ∃ k lo hi t d z, ths[k]? = some t ∧ rg[i + k]? = some (lo, hi) ∧ dz[j]? = some d ∧ zdr[j]? = some z ∧
          (d >. lo) = true ∧ (d <=. hi) = true ∧ (z >=. t) = true := by
  induction ths generalizing i with
  | nil => exact ⟨[], rfl, by simp, by simp⟩
  | cons t ths ih =>
    simp only [List.length_cons] at h
    obtain ⟨cs, hcs, hl, hspec⟩ := ih (i + 1) (by omega)
    have hi : i < rg.length := by omega
    have hget : rg[i]? = some rg[i] := List.getElem?_eq_getElem hi
    refine ⟨logicalAnd (logicalAnd (dz.map (· >. rg[i].1)) (dz.map (· <=. rg[i].2))) (zdr.map (· >=. t)) :: cs,
      ?_, ?_, ?_⟩
    · simp [insectConds, insectCond, hget, hcs]; rfl
    · intro c hc
      rcases List.mem_cons.mp hc with rfl | hc
      · simp [logicalAnd, hlen]
      · exact hl c hc
    · intro j
      simp only [List.mem_cons, exists_eq_or_imp, hspec, logicalAnd_get]
      constructor
      · rintro (h | ⟨k, lo, hi', t', d, z, h1, h2, h3⟩)
        · obtain ⟨⟨h1, h2⟩, h3⟩ := h
          simp only [List.getElem?_map, Option.map_eq_some_iff] at h1 h2 h3
          obtain ⟨d, hd, h1⟩ := h1
          obtain ⟨d', hd', h2⟩ := h2
          obtain ⟨z, hz, h3⟩ := h3
          rw [hd] at hd'; cases hd'
          exact ⟨0, rg[i].1, rg[i].2, t, d, z, rfl, by simp, hd, hz, h1, h2, h3⟩
        · exact ⟨k + 1, lo, hi', t', d, z, by simpa using h1, by rw [← h2]; congr 1; omega, h3⟩
      · rintro ⟨k, lo, hi', t', d, z, h1, h2, h3, h4, h5, h6, h7⟩
        cases k with
        | zero =>
          left
          simp only [Nat.add_zero, hget, Option.some.injEq] at h2
          simp only [List.getElem?_cons_zero, Option.some.injEq] at h1
          subst h1
          simp [h3, h4, h2, h5, h6, h7]
        | succ k =>
          right
          exact ⟨k, lo, hi', t', d, z, by simpa using h1, by rw [← h2]; congr 1; omega, h3, h4, h5, h6, h7⟩

theorem insectConds_err (dz zdr : List α) (rg : List (α × α)) (ths : List α) (i : Nat)
    (hi : i ≤ rg.length) (h : rg.length < i + ths.length) :
    insectConds dz zdr rg i ths = .error .indexError := by
  induction ths generalizing i with
  | nil => simp at h; omega
  | cons t ths ih =>
    rcases Nat.lt_or_ge i rg.length with h1 | h1
    · simp only [List.length_cons] at h
      rw [insectConds, ih (i + 1) (by omega) (by omega)]
      simp [insectCond, List.getElem?_eq_getElem h1]
      rfl
    · rw [insectConds]
      simp [insectCond, List.getElem?_eq_none_iff.mpr h1]
      rfl

/-! ## Labelling -/

theorem labelGo_length (l : List Bool) : ∀ (k : Nat) (b : Bool), (labelGo k b l).length = l.length := by
  induction l with
  | nil => intros; rfl
  | cons x xs ih => intro k b; cases x <;> simp [labelGo, ih]

theorem labelGo_zero (l : List Bool) : ∀ (k : Nat) (b : Bool) (i : Nat), (b = true → 0 < k) → 
    ((labelGo k b l)[i]? = some 0 ↔ l[i]? = some false) := by
  induction l with
  | nil => intros; simp [labelGo]
  | cons x xs ih =>
    intro k b i hb
    cases x with
    | false =>
      cases i with
      | zero => simp [labelGo]
      | succ i => simpa [labelGo] using ih k false i (by simp)
    | true =>
      have hk : 0 < (if b = true then k else k + 1) := by split <;> [exact hb ‹_›; omega]
      cases i with
      | zero => simp only [labelGo, List.getElem?_cons_zero, Option.some.injEq]; simp; omega
      | succ i => simpa [labelGo] using ih _ true i (fun _ => hk)

/-- after a gap, labels are 0 or new -/
theorem labelGo_fresh (l : List Bool) : ∀ (k : Nat) (b : Bool) (i v : Nat), (labelGo k b l)[i]? = some v → v = 0 ∨ k ≤ v := by
  induction l with
  | nil => intro k b i v h; simp [labelGo] at h
  | cons x xs ih =>
    intro k b i v h
    cases x with
    | false =>
      cases i with
      | zero => simp [labelGo] at h; exact .inl h.symm
      | succ i => exact ih k false i v (by simpa [labelGo] using h)
    | true =>
      cases i with
      | zero => simp [labelGo] at h; subst h; right; split <;> omega
      | succ i =>
        rcases ih _ true i v (by simpa [labelGo] using h) with h | h
        · exact .inl h
        · right; revert h; split <;> omega

theorem labelGo_fresh' (l : List Bool) : ∀ k i v : Nat, (labelGo k false l)[i]? = some v → v = 0 ∨ k < v := by
  induction l with
  | nil => intro k i v h; simp [labelGo] at h
  | cons x xs ih =>
    intro k i v h
    cases x with
    | false =>
      cases i with
      | zero => simp [labelGo] at h; exact .inl h.symm
      | succ i => exact ih k i v (by simpa [labelGo] using h)
    | true =>
      cases i with
      | zero => simp [labelGo] at h; omega
      | succ i =>
        rcases labelGo_fresh xs (k+1) true i v (by simpa [labelGo] using h) with h | h <;> omega

/-- inside a run with label `k > 0`: element `j` has label `k` iff the run reaches it -/
theorem labelGo_run (l : List Bool) : ∀ k j : Nat, 0 < k → j < l.length →
    ((labelGo k true l)[j]? = some k ↔ ∀ m : Nat, m ≤ j → l[m]? = some true) := by
  induction l with
  | nil => intro k j _ h; simp at h
  | cons x xs ih =>
    intro k j hk hj
    cases x with
    | false =>
      have h2 : ¬ ∀ m, m ≤ j → (false :: xs)[m]? = some true := by
        intro h; simpa using h 0 (by omega)
      simp only [h2, iff_false]
      cases j with
      | zero => simp [labelGo]; omega
      | succ j =>
        intro h
        rcases labelGo_fresh' xs k j k (by simpa [labelGo] using h) with h | h <;> omega
    | true =>
      cases j with
      | zero => simp [labelGo]
      | succ j =>
        simp only [List.length_cons] at hj
        have := ih k j hk (by omega)
        simp only [labelGo, if_true, List.getElem?_cons_succ, this]
        constructor
        · intro h m hm
          cases m with
          | zero => simp
          | succ m => simpa using h m (by omega)
        · intro h m hm
          simpa using h (m + 1) (by omega)

/-- two good gates carry the same label iff every gate between them is good -/
theorem labelGo_same (l : List Bool) : ∀ (k : Nat) (b : Bool) (i j : Nat), (b = true → 0 < k) → i ≤ j → j < l.length →
    (((labelGo k b l)[i]? = (labelGo k b l)[j]? ∧ l[i]? = some true) ↔
      ∀ m : Nat, i ≤ m → m ≤ j → l[m]? = some true) := by
  induction l with
  | nil => intro k b i j _ _ h; simp at h
  | cons x xs ih =>
    intro k b i j hb hij hj
    simp only [List.length_cons] at hj
    cases i with
    | succ i =>
      cases j with
      | zero => omega
      | succ j =>
        have aux : ∀ k' b', (b' = true → 0 < k') →
            (((labelGo k' b' xs)[i]? = (labelGo k' b' xs)[j]? ∧ xs[i]? = some true) ↔
            ∀ m, i + 1 ≤ m → m ≤ j + 1 → (x :: xs)[m]? = some true) := by
          intro k' b' hb'
          rw [ih k' b' i j hb' (by omega) (by omega)]
          constructor
          · intro h m h1 h2
            obtain ⟨m, rfl⟩ : ∃ n, m = n + 1 := ⟨m - 1, by omega⟩
            simpa using h m (by omega) (by omega)
          · intro h m h1 h2; simpa using h (m + 1) (by omega) (by omega)
        cases x with
        | false => simpa [labelGo] using aux k false (by simp)
        | true =>
          have hk : 0 < (if b = true then k else k + 1) := by split <;> [exact hb ‹_›; omega]
          simpa [labelGo] using aux _ true (fun _ => hk)
    | zero =>
      cases x with
      | false =>
        constructor
        · rintro ⟨_, h⟩; simp at h
        · intro h; have := h 0 (by omega) (by omega); simp at this
      | true =>
        have hk : 0 < (if b = true then k else k + 1) := by split <;> [exact hb ‹_›; omega]
        cases j with
        | zero =>
          simp only [List.getElem?_cons_zero, and_self, true_iff]
          intro m _ hm; obtain rfl : m = 0 := by omega
          rfl
        | succ j =>
          have := labelGo_run xs _ j hk (by omega)
          simp only [labelGo, List.getElem?_cons_zero, List.getElem?_cons_succ, and_true, eq_comm (a := some _)]
          rw [this]
          constructor
          · intro h m _ hm
            cases m with
            | zero => rfl
            | succ m => simpa using h m (by omega)
          · intro h m hm; simpa using h (m + 1) (by omega) (by omega)

theorem label_length (r : List Bool) : (label r).length = r.length := labelGo_length r 0 false

theorem label_zero (r : List Bool) (i : Nat) : (label r)[i]? = some 0 ↔ r[i]? = some false :=
  labelGo_zero r 0 false i (by simp)

theorem label_same (r : List Bool) (i j : Nat) (h : i ≤ j) (hj : j < r.length) :
    (((label r)[i]? = (label r)[j]? ∧ r[i]? = some true) ↔ ∀ m : Nat, i ≤ m → m ≤ j → r[m]? = some true) :=
  labelGo_same r 0 false i j (by simp) h hj

/-! ## The relabel loop -/

theorem zeroSmall_length (labels : List Nat) (n : Int) (lab : List Nat) (f : Nat) :
    (zeroSmall labels n lab f).length = lab.length := by
  simp only [zeroSmall]; split <;> simp [maskSet]

theorem zeroSmall_get (labels : List Nat) (n : Int) (lab : List Nat) (f i v : Nat) (h : lab[i]? = some v) :
    (zeroSmall labels n lab f)[i]? =
      some (if v = f ∧ ((labels.count f : Nat) : Int) ≤ n then 0 else v) := by
  simp only [zeroSmall]
  have hc : (labels.filter (· == f)).length = labels.count f := by
    rw [List.count_eq_length_filter]
  simp only [hc]
  by_cases hn : ((labels.count f : Nat) : Int) ≤ n
  · simp only [hn, if_true, and_true, maskSet, List.getElem?_zipWith, List.getElem?_map, h]
    by_cases hv : v = f <;> simp [hv]
  · simp [hn, h]

theorem foldl_zeroSmall (labels : List Nat) (n : Int) (fs : List Nat) : ∀ (lab : List Nat) (i v : Nat),
    (0 ∉ fs) → lab[i]? = some v → 
    (fs.foldl (zeroSmall labels n) lab)[i]? =
      some (if v ∈ fs ∧ ((labels.count v : Nat) : Int) ≤ n then 0 else v) := by
  induction fs with
  | nil => intro lab i v _ h; simpa using h
  | cons f fs ih =>
    intro lab i v h0 h
    simp only [List.mem_cons, not_or] at h0
    rw [List.foldl_cons, ih _ i _ h0.2 (zeroSmall_get labels n lab f i v h)]
    by_cases hv : v = f
    · subst hv
      by_cases hc : ((labels.count v : Nat) : Int) ≤ n
      · simp [hc]
      · simp [hc]
    · simp [hv]

theorem foldl_zeroSmall_length (labels : List Nat) (n : Int) (fs : List Nat) : ∀ (lab : List Nat),
    (fs.foldl (zeroSmall labels n) lab).length = lab.length := by
  induction fs with
  | nil => intro; rfl
  | cons f fs ih => intro lab; rw [List.foldl_cons, ih, zeroSmall_length]

theorem le_foldl_max (l : List Nat) : ∀ a, a ≤ l.foldl max a ∧ ∀ x ∈ l, x ≤ l.foldl max a := by
  induction l with
  | nil => intro a; simp
  | cons x xs ih =>
    intro a
    obtain ⟨h1, h2⟩ := ih (max a x)
    refine ⟨by rw [List.foldl_cons]; omega, fun y hy => ?_⟩
    rcases List.mem_cons.mp hy with rfl | hy
    · rw [List.foldl_cons]; omega
    · exact h2 y hy

theorem foldl_min_le (l : List Nat) : ∀ a, l.foldl min a ≤ a ∧ ∀ x ∈ l, l.foldl min a ≤ x := by
  induction l with
  | nil => intro a; simp
  | cons x xs ih =>
    intro a
    obtain ⟨h1, h2⟩ := ih (min a x)
    refine ⟨by rw [List.foldl_cons]; omega, fun y hy => ?_⟩
    rcases List.mem_cons.mp hy with rfl | hy
    · rw [List.foldl_cons]; omega
    · exact h2 y hy

theorem foldl_min_pos (l : List Nat) : ∀ a, 0 < a → (∀ x ∈ l, 0 < x) → 0 < l.foldl min a := by
  induction l with
  | nil => intro a h _; simpa
  | cons x xs ih =>
    intro a h h2
    rw [List.foldl_cons]
    exact ih _ (by have := h2 x (by simp); omega) (fun y hy => h2 y (by simp [hy]))

theorem despeckleRay_length (ray : List Bool) (n : Int) : (despeckleRay ray n).length = ray.length := by
  simp only [despeckleRay, List.length_map]
  split
  · rw [foldl_zeroSmall_length, label_length]
  · exact label_length ray

/-- The loop, summarised: a gate is flagged iff its label is 0 or its label occurs at most `ngates` times. -/
theorem despeckleRay_get (ray : List Bool) (n : Int) (i v : Nat) (h : (label ray)[i]? = some v) :
    (despeckleRay ray n)[i]? = some (decide (v = 0 ∨ ((label ray).count v : Int) ≤ n)) := by
  simp only [despeckleRay]
  have hmem : v ∈ label ray := List.mem_of_getElem? h
  have hmx : v ≤ (label ray).foldl max 0 := (le_foldl_max _ 0).2 v hmem
  split
  next hnf =>
    rw [List.getElem?_map]
    have hpos : 0 < ((label ray).filter (· > 0)).foldl min ((label ray).foldl max 0) := by
      apply foldl_min_pos
      · exact hnf
      · intro x hx; simpa using (List.mem_filter.mp hx).2
    rw [foldl_zeroSmall _ _ _ _ i v (by rw [List.mem_range']; rintro ⟨j, _, hj⟩; omega) h]
    simp only [Option.map_some]
    congr 1
    by_cases hv : v = 0
    · simp [hv]
    · have hvl : v ∈ (label ray).filter (· > 0) := by
        simp [List.mem_filter, hmem]; omega
      have h1 := (foldl_min_le ((label ray).filter (· > 0)) ((label ray).foldl max 0)).2 v hvl
      have h2 := (le_foldl_max ((label ray).filter (· > 0)) 0).2 v hvl
      have hin : v ∈ List.range' (List.foldl min (List.foldl max 0 (label ray)) (List.filter (fun x => decide (x > 0)) (label ray)))
          (List.foldl max 0 (List.filter (fun x => decide (x > 0)) (label ray)) -
            List.foldl min (List.foldl max 0 (label ray)) (List.filter (fun x => decide (x > 0)) (label ray)) + 1) := by
        rw [List.mem_range'_1]; omega
      have hcount : ((label ray).filter (fun x => decide (x > 0))).count v = (label ray).count v := by
        rw [List.count_filter]; simp; omega
      rw [hcount]
      by_cases hc : ((label ray).count v : Int) ≤ n
      · simp [hin, hc]
      · simp [hv, hc]
  next hnf =>
    have hv : v = 0 := by omega
    rw [List.getElem?_map, h]; simp [hv]

theorem count_eq_card (l : List Nat) (v : Nat) :
    l.count v = ((Finset.range l.length).filter (fun j => l[j]? = some v)).card := by
  induction l with
  | nil => simp
  | cons x xs ih =>
    rw [List.count_cons, ih, List.length_cons, Finset.range_add_one', Finset.filter_insert]
    have hinj : ((Finset.map ⟨fun i => i + 1, fun _ _ h => by simpa using h⟩ (Finset.range xs.length)).filter
        (fun j => (x :: xs)[j]? = some v)).card = ((Finset.range xs.length).filter (fun j => xs[j]? = some v)).card := by
      rw [Finset.filter_map, Finset.card_map]
      congr 1
    by_cases hx : x = v
    · subst hx
      simp only [List.getElem?_cons_zero, if_true, beq_self_eq_true]
      rw [Finset.card_insert_of_notMem (by simp), hinj]
    · simp only [List.getElem?_cons_zero, Option.some.injEq, hx, if_false, beq_iff_eq, Nat.add_zero]
      rw [hinj]

/-- A gate is kept iff some `ngates + 1` consecutive gates around it are good. -/
theorem despeckleRay_keep (ray : List Bool) (n : Int) (i : Nat) :
    (despeckleRay ray n)[i]? = some false ↔
      ∃ s : Nat, s ≤ i ∧ i ≤ s + n.toNat ∧ ∀ j : Nat, s ≤ j → j ≤ s + n.toNat → ray[j]? = some true := by
  rcases Nat.lt_or_ge i ray.length with hi | hi
  swap
  · have : (despeckleRay ray n)[i]? = none := by
      rw [List.getElem?_eq_none_iff, despeckleRay_length]; exact hi
    rw [this]
    constructor
    · simp
    · rintro ⟨s, h1, h2, h3⟩
      have := h3 i h1 h2
      rw [List.getElem?_eq_none_iff.mpr hi] at this; simp at this
  have hl : i < (label ray).length := by rw [label_length]; exact hi
  obtain ⟨v, hv⟩ : ∃ v, (label ray)[i]? = some v := ⟨_, List.getElem?_eq_getElem hl⟩
  rw [despeckleRay_get ray n i v hv]
  simp only [Option.some.injEq, decide_eq_false_iff_not, not_or, not_le]
  have hgood : v ≠ 0 ↔ ray[i]? = some true := by
    have := label_zero ray i
    rw [hv] at this
    have h2 : ray[i]? = some ray[i] := List.getElem?_eq_getElem hi
    rw [h2] at this ⊢
    simp only [Option.some.injEq] at this ⊢
    rw [ne_eq, this]; simp
  -- same-label positions
  have same : ∀ a b : Nat, a ≤ b → b < ray.length → (label ray)[a]? = some v → (label ray)[b]? = some v → v ≠ 0 →
      ∀ m : Nat, a ≤ m → m ≤ b → ray[m]? = some true := by
    intro a b hab hb ha hb' hv0
    apply (label_same ray a b hab hb).mp
    refine ⟨by rw [ha, hb'], ?_⟩
    have ha2 : a < ray.length := by omega
    have := label_zero ray a
    rw [ha, List.getElem?_eq_getElem ha2] at this
    rw [List.getElem?_eq_getElem ha2]
    simp only [Option.some.injEq] at this ⊢
    cases hr : ray[a] with
    | true => rfl
    | false => exact absurd (this.mpr hr) hv0
  have lab_of_run : ∀ a b : Nat, a ≤ b → b < ray.length → (∀ m : Nat, a ≤ m → m ≤ b → ray[m]? = some true) →
      (label ray)[a]? = (label ray)[b]? := fun a b hab hb h => ((label_same ray a b hab hb).mpr h).1
  have hcard := count_eq_card (label ray) v
  rw [label_length] at hcard
  constructor
  · rintro ⟨hv0, hcnt⟩
    set P := (Finset.range ray.length).filter (fun j => (label ray)[j]? = some v) with hP
    have hiP : i ∈ P := by simp [hP, hi, hv]
    have hne : P.Nonempty := ⟨i, hiP⟩
    set a := P.min' hne with ha
    set b := P.max' hne with hb
    have haP : a ∈ P := P.min'_mem hne
    have hbP : b ∈ P := P.max'_mem hne
    have hsub : P ⊆ Finset.Icc a b := by
      intro x hx
      rw [Finset.mem_Icc]; exact ⟨P.min'_le x hx, P.le_max' x hx⟩
    have hc2 := Finset.card_le_card hsub
    rw [Nat.card_Icc] at hc2
    have hai : a ≤ i := P.min'_le i hiP
    have hib : i ≤ b := P.le_max' i hiP
    simp only [hP, Finset.mem_filter, Finset.mem_range] at haP hbP
    have hrun := same a b (by omega) hbP.1 haP.2 hbP.2 hv0
    have hnb : n.toNat + 1 ≤ b + 1 - a := by omega
    refine ⟨max a (i - n.toNat), by omega, by omega, ?_⟩
    intro j h1 h2
    exact hrun j (by omega) (by omega)
  · rintro ⟨s, h1, h2, h3⟩
    have hi' := h3 i h1 h2
    refine ⟨hgood.mpr hi', ?_⟩
    have hlast : s + n.toNat < ray.length := by
      have := h3 (s + n.toNat) (by omega) (by omega)
      by_contra hcon
      rw [List.getElem?_eq_none_iff.mpr (by omega)] at this; simp at this
    have hsub : Finset.Icc s (s + n.toNat) ⊆ (Finset.range ray.length).filter (fun j => (label ray)[j]? = some v) := by
      intro x hx
      rw [Finset.mem_Icc] at hx
      simp only [Finset.mem_filter, Finset.mem_range]
      refine ⟨by omega, ?_⟩
      rcases Nat.le_total x i with h | h
      · rw [lab_of_run x i h hi (fun m hm1 hm2 => h3 m (by omega) (by omega)), hv]
      · rw [← lab_of_run i x h (by omega) (fun m hm1 hm2 => h3 m (by omega) (by omega)), hv]
    have hc2 := Finset.card_le_card hsub
    rw [Nat.card_Icc, ← hcard] at hc2
    omega

end Csu.Misc
