import Verif.Lemmas.Kdp
/-! Lemmas about the FIR filter and the KDP windows, for any arithmetic. -/
namespace Csu.Kdp
open Csu PyFloat
variable {α : Type} [PyFloat α]

/-! ## What a filter step can change -/

theorem good_true {chk : Bool} {R : Ray α} {sd z : Buf α} {j : Int} (h : good chk R sd z j = .ok true) :
    (sd.mem j <=. R.thsd.mem j) = true ∧ (z.mem j !=. R.bad) = true := by
  unfold good at h
  obtain ⟨s, h1, h⟩ := bind_ok h
  obtain ⟨t, h2, h⟩ := bind_ok h
  rw [rd_val h1, rd_val h2] at h
  split at h
  · rename_i hc
    obtain ⟨v, h3, h⟩ := bind_ok h
    rw [rd_val h3] at h
    exact ⟨hc, Except.ok.inj h⟩
  · cases h

theorem good_val {chk : Bool} {R : Ray α} {sd z : Buf α} {j : Int} {b : Bool} (h : good chk R sd z j = .ok b) :
    b = ((sd.mem j <=. R.thsd.mem j) && (z.mem j !=. R.bad)) := by
  unfold good at h
  obtain ⟨s, h1, h⟩ := bind_ok h
  obtain ⟨t, h2, h⟩ := bind_ok h
  rw [rd_val h1, rd_val h2] at h
  split at h
  · rename_i hc
    obtain ⟨v, h3, h⟩ := bind_ok h
    rw [rd_val h3] at h
    rw [hc]; simpa using (Except.ok.inj h).symm
  · rename_i hc
    simp only [Bool.not_eq_true] at hc
    rw [hc]; simpa using (Except.ok.inj h).symm

theorem set_val {chk : Bool} {name : String} {b c : Buf α} {i : Int} {v : α} (h : b.set chk name i v = .ok c) :
    c = ⟨b.len, fun j => if j = i then v else b.mem j⟩ := by
  unfold Buf.set at h; split at h
  · cases h
  · cases h; rfl

/-- the cases of a filter step -/
theorem firGate_cases {D : Dialect α} {chk : Bool} {R : Ray α} {sd : Buf α} {yz r : Buf α × Buf α} {i : Int}
    (e : firGate D chk R sd yz i = .ok r) :
    r = yz ∨ ∃ pts z A, (sd.mem i <=. R.thsd.mem i) = true ∧ (yz.2.mem i !=. R.bad) = true ∧
      collect chk R sd yz.2 (rangeI (i - R.half) (i + R.half + 1)) = .ok pts ∧
      (D.w (PyFloat.ofNat pts.length) >. D.w (D.w (0.8 : α) * D.w (PyFloat.ofNat R.order))) = true ∧
      ((pts.length < R.order + 1 ∧ ∃ ab, lse D R.bad pts = .ok ab ∧
          fill D chk R ab (rangeI (i - R.half) (i + R.half + 1)) yz.2 = .ok z) ∨ (¬ pts.length < R.order + 1 ∧ z = yz.2)) ∧
      firSum D chk R z (i - R.half) (rangeI (i - R.half) (i + R.half + 1)) = .ok A ∧
      r = (⟨yz.1.len, fun j => if j = i then f32 (A * R.gain) else yz.1.mem j⟩, z) := by
  unfold firGate at e
  obtain ⟨g, hg, e⟩ := bind_ok e
  cases g with
  | false => left; exact (Except.ok.inj e).symm
  | true =>
    simp only [if_true] at e
    obtain ⟨pts, hp, e⟩ := bind_ok e
    split at e
    · rename_i hc
      right
      obtain ⟨z, hz, e⟩ := bind_ok e
      obtain ⟨A, hA, e⟩ := bind_ok e
      obtain ⟨y, hy, e⟩ := bind_ok e
      have := set_val hy
      subst this
      refine ⟨pts, z, A, (good_true hg).1, (good_true hg).2, hp, hc, ?_, hA, (Except.ok.inj e).symm⟩
      split at hz
      · rename_i hlt
        obtain ⟨ab, h1, h2⟩ := bind_ok hz
        exact .inl ⟨hlt, ab, h1, h2⟩
      · rename_i hlt
        exact .inr ⟨hlt, (Except.ok.inj hz).symm⟩
    · left; exact (Except.ok.inj e).symm

/-- gap filling leaves good gates alone -/
theorem fill_keeps {chk : Bool} {R : Ray α} {ab : α × α} {js : List Int} {z z' : Buf α} (e : fill D chk R ab js z = .ok z')
    {j : Int} (hj : (z.mem j !=. R.bad) = true) : z'.mem j = z.mem j := by
  unfold fill at e
  refine foldlM_inv (I := fun w : Buf α => w.mem j = z.mem j) rfl (fun s k r _ hs hr => ?_) e
  obtain ⟨v, hv, hr⟩ := bind_ok hr
  have hv := rd_val hv
  split at hr
  · rename_i hb
    obtain ⟨t, ht, hr⟩ := bind_ok hr
    have := set_val hr
    subst this
    by_cases hjk : j = k
    · subst hjk
      rw [hv, hs] at hb
      simp [PyFloat.ne, hb] at hj
    · simp [hjk, hs]
  · cases hr; exact hs

/-- a filter step writes `y` only at its own gate, and there only if the gate passes quality control -/
theorem firGate_y {D : Dialect α} {chk : Bool} {R : Ray α} {sd : Buf α} {yz r : Buf α × Buf α} {i : Int}
    (e : firGate D chk R sd yz i = .ok r) {j : Int} (hj : j ≠ i ∨ (sd.mem j <=. R.thsd.mem j) = false) :
    r.1.mem j = yz.1.mem j := by
  rcases firGate_cases e with rfl | ⟨pts, z, A, h1, h2, -, -, -, -, rfl⟩
  · rfl
  · have : j ≠ i := by
      rcases hj with hj | hj
      · exact hj
      · rintro rfl; rw [hj] at h1; cases h1
    simp [this]

theorem firGate_z {D : Dialect α} {chk : Bool} {R : Ray α} {sd : Buf α} {yz r : Buf α × Buf α} {i : Int}
    (e : firGate D chk R sd yz i = .ok r) {j : Int} (hj : (yz.2.mem j !=. R.bad) = true) : r.2.mem j = yz.2.mem j := by
  rcases firGate_cases e with rfl | ⟨pts, z, A, -, -, -, -, hz, -, rfl⟩
  · rfl
  · rcases hz with ⟨-, ab, -, hf⟩ | ⟨-, rfl⟩
    · exact fill_keeps hf hj
    · rfl

/-- a gate outside the filtered range, or failing quality control, keeps its value of `y` -/
theorem firPass_y {D : Dialect α} {chk : Bool} {R : Ray α} {sd : Buf α} {yz r : Buf α × Buf α}
    (e : firPass D chk R sd yz = .ok r) {j : Int}
    (hj : j < R.half ∨ (R.n : Int) - R.half ≤ j ∨ (sd.mem j <=. R.thsd.mem j) = false) :
    r.1.mem j = yz.1.mem j ∧ r.2 = r.1 := by
  unfold firPass at e
  obtain ⟨w, h, e⟩ := bind_ok e
  cases e
  refine ⟨?_, rfl⟩
  show w.1.mem j = _
  refine foldlM_inv (I := fun s : Buf α × Buf α => s.1.mem j = yz.1.mem j) rfl (fun s i r hi hs hr => ?_) h
  have := mem_rangeI.mp hi
  rw [firGate_y hr (j := j) ?_, hs]
  rcases hj with hj | hj | hj
  · left; omega
  · left; omega
  · right; exact hj

theorem firPasses_y {D : Dialect α} {chk : Bool} {R : Ray α} {sd : Buf α} {k : Nat} (hk : 0 < k) {yz r : Buf α × Buf α}
    (e : firPasses D chk R sd k yz = .ok r) {j : Int}
    (hj : j < R.half ∨ (R.n : Int) - R.half ≤ j ∨ (sd.mem j <=. R.thsd.mem j) = false) :
    r.2.mem j = yz.1.mem j := by
  induction k generalizing yz with
  | zero => omega
  | succ k ih =>
    unfold firPasses at e
    obtain ⟨w, h1, h2⟩ := bind_ok e
    have := firPass_y h1 hj
    rcases Nat.eq_zero_or_pos k with rfl | hk
    · cases h2; rw [this.2, this.1]
    · rw [ih hk h2, this.1]

theorem ofList_get (n : Nat) (l : List α) (i : Nat) (h : i < l.length) : (ofList n l).mem i = l[i] := by
  simp [ofList, h]

/-! ## A gate in an all-good window -/

theorem rangeI_append (a b c : Int) (h1 : a ≤ b) (h2 : b ≤ c) : rangeI a c = rangeI a b ++ rangeI b c := by
  unfold rangeI
  obtain ⟨p, hp⟩ : ∃ p : Nat, b = a + p := ⟨(b - a).toNat, by omega⟩
  obtain ⟨q, hq⟩ : ∃ q : Nat, c = b + q := ⟨(c - b).toNat, by omega⟩
  have e1 : (c - a).toNat = p + q := by omega
  have e2 : (b - a).toNat = p := by omega
  have e3 : (c - b).toNat = q := by omega
  rw [e1, e2, e3, List.range_add, List.map_append, List.map_map]
  congr 1
  apply List.map_congr_left
  intro k _
  simp only [Function.comp, Int.ofNat_eq_natCast]
  omega

theorem rangeI_cons (a b : Int) (h : a < b) : rangeI a b = a :: rangeI (a + 1) b := by
  rw [rangeI_append a (a + 1) b (by omega) (by omega)]
  have : rangeI a (a + 1) = [a] := by
    unfold rangeI
    rw [show (a + 1 - a).toNat = 1 by omega]; simp
  rw [this]; rfl

theorem foldlM_append_ok {β σ : Type} {f : σ → β → Except PyErr σ} {l l' : List β} {s r : σ}
    (e : (l ++ l').foldlM f s = .ok r) : ∃ t, l.foldlM f s = .ok t ∧ l'.foldlM f t = .ok r := by
  rw [List.foldlM_append] at e
  exact bind_ok e

/-- the fold of `firSum` as a pure fold -/
theorem firSum_val {D : Dialect α} {chk : Bool} {R : Ray α} {z : Buf α} {lo : Int} {js : List Int} {A : α}
    (e : firSum D chk R z lo js = .ok A) :
    A = js.foldl (fun A j => D.w (A + D.w (R.coef.mem (j - lo + D.coefOff) * z.mem j))) 0.0 := by
  unfold firSum at e
  generalize (0.0 : α) = s at e ⊢
  induction js generalizing s with
  | nil => cases e; rfl
  | cons j js ih =>
    rw [List.foldlM_cons] at e
    obtain ⟨v, h1, h2⟩ := bind_ok e
    obtain ⟨c, hc, h1⟩ := bind_ok h1
    obtain ⟨w, hw, h1⟩ := bind_ok h1
    cases h1
    rw [List.foldl_cons, ← rd_val hc, ← rd_val hw]
    exact ih _ h2

theorem push_val {chk : Bool} {acc r : List (α × α)} {p : α × α} (h : push chk acc p = .ok r) : r = acc ++ [p] := by
  unfold push at h; split at h
  · cases h
  · cases h; rfl

theorem collect_val {chk : Bool} {R : Ray α} {sd z : Buf α} {js : List Int} {pts : List (α × α)}
    (e : collect chk R sd z js = .ok pts) :
    pts = (js.filter (fun j => (sd.mem j <=. R.thsd.mem j) && (z.mem j !=. R.bad))).map (fun j => (R.rng.mem j, z.mem j)) := by
  unfold collect at e
  suffices h : ∀ acc, js.foldlM (fun acc j => do
      if ← good chk R sd z j then do
        let v ← rd chk "z" z j
        let r ← rd chk "rng" R.rng j
        push chk acc (r, v)
      else .ok acc) acc = Except.ok pts → pts = acc ++ (js.filter (fun j => (sd.mem j <=. R.thsd.mem j) &&
        (z.mem j !=. R.bad))).map (fun j => (R.rng.mem j, z.mem j)) by
    simpa using h [] e
  clear e
  induction js with
  | nil => intro acc e; cases e; simp
  | cons j js ih =>
    intro acc e
    rw [List.foldlM_cons] at e
    obtain ⟨v, h1, h2⟩ := bind_ok e
    obtain ⟨g, hg, h1⟩ := bind_ok h1
    have hv := good_val hg
    have := ih v h2
    rw [this]
    cases g with
    | true =>
      simp only [if_true] at h1
      obtain ⟨a, ha, h1⟩ := bind_ok h1
      obtain ⟨b, hb, h1⟩ := bind_ok h1
      rw [push_val h1, rd_val ha, rd_val hb, List.filter_cons, if_pos hv.symm]
      simp
    | false =>
      cases h1
      rw [List.filter_cons, if_neg (by rw [← hv]; simp)]

theorem kdpCollect_val {chk : Bool} {R : Ray α} {z : Buf α} {js : List Int} {pts : List (α × α)}
    (e : kdpCollect chk R z js = .ok pts) :
    pts = (js.filter (fun j => z.mem j !=. R.bad)).map (fun j => (R.rng.mem j, z.mem j)) := by
  unfold kdpCollect at e
  suffices h : ∀ acc, js.foldlM (fun acc j => do
      let v ← rd chk "dp_lin" z j
      if v !=. R.bad then do
        let r ← rd chk "rng" R.rng j
        push chk acc (r, v)
      else .ok acc) acc = Except.ok pts →
        pts = acc ++ (js.filter (fun j => z.mem j !=. R.bad)).map (fun j => (R.rng.mem j, z.mem j)) by
    simpa using h [] e
  clear e
  induction js with
  | nil => intro acc e; cases e; simp
  | cons j js ih =>
    intro acc e
    rw [List.foldlM_cons] at e
    obtain ⟨v, h1, h2⟩ := bind_ok e
    obtain ⟨a, ha, h1⟩ := bind_ok h1
    have hv := rd_val ha
    subst hv
    have := ih v h2
    rw [this]
    split at h1
    · rename_i hb
      obtain ⟨b, hb', h1⟩ := bind_ok h1
      rw [push_val h1, rd_val hb', List.filter_cons, if_pos hb]
      simp
    · rename_i hb
      cases h1
      rw [List.filter_cons, if_neg hb]

/-- One pass at a gate whose whole window is good: the plain filter sum over the input of the pass. -/
theorem firPass_good {D : Dialect α} {chk : Bool} {R : Ray α} {sd : Buf α} {yz r : Buf α × Buf α}
    (e : firPass D chk R sd yz = .ok r) {i : Int} (h0 : R.half ≤ i) (h1 : i < (R.n : Int) - R.half)
    (he : R.order % 2 = 0) (hlt : (D.w (PyFloat.ofNat (R.order + 1)) >. D.w (D.w (0.8 : α) * D.w (PyFloat.ofNat R.order))) = true)
    (hw : ∀ j, i - R.half ≤ j → j ≤ i + R.half → (sd.mem j <=. R.thsd.mem j) = true ∧ (yz.2.mem j !=. R.bad) = true) :
    r.2.mem i = f32 ((rangeI (i - R.half) (i + R.half + 1)).foldl
      (fun A j => D.w (A + D.w (R.coef.mem (j - (i - R.half) + D.coefOff) * yz.2.mem j))) 0.0 * R.gain) := by
  unfold firPass at e
  obtain ⟨w, h, e⟩ := bind_ok e
  cases e
  rw [rangeI_append _ i _ h0 (by omega), rangeI_cons i _ h1] at h
  obtain ⟨t, ht, h⟩ := foldlM_append_ok h
  rw [List.foldlM_cons] at h
  obtain ⟨u, hu, h⟩ := bind_ok h
  -- before gate i: good gates keep their value
  have hz : ∀ j, (yz.2.mem j !=. R.bad) = true → t.2.mem j = yz.2.mem j := by
    intro j hj
    refine foldlM_inv (I := fun s : Buf α × Buf α => s.2.mem j = yz.2.mem j) rfl (fun s k r _ hs hr => ?_) ht
    rw [firGate_z hr (by rw [hs]; exact hj), hs]
  -- after gate i: y at i is kept
  have hy : w.1.mem i = u.1.mem i := by
    refine foldlM_inv (I := fun s : Buf α × Buf α => s.1.mem i = u.1.mem i) rfl (fun s k r hk hs hr => ?_) h
    have := mem_rangeI.mp hk
    rw [firGate_y hr (.inl (by omega)), hs]
  -- at gate i
  have hcol : ∀ pts, collect chk R sd t.2 (rangeI (i - R.half) (i + R.half + 1)) = .ok pts → pts.length = R.order + 1 := by
    intro pts hp
    rw [collect_val hp, List.length_map, List.filter_eq_self.mpr, length_rangeI]
    · unfold Ray.half at *; omega
    · intro j hj
      have := mem_rangeI.mp hj
      have := hw j this.1 (by omega)
      rw [this.1, hz j this.2, this.2]; rfl
  have hgi := hw i (by omega) (by omega)
  show w.1.mem i = _
  rw [hy]
  unfold firGate at hu
  obtain ⟨g, hg, hu⟩ := bind_ok hu
  have hgv := good_val hg
  rw [hgi.1, hz i hgi.2, hgi.2] at hgv
  subst hgv
  simp only [Bool.and_self, if_true] at hu
  obtain ⟨pts, hp, hu⟩ := bind_ok hu
  have hl := hcol pts hp
  rw [hl, if_pos hlt] at hu
  obtain ⟨z, hz', hu⟩ := bind_ok hu
  rw [if_neg (by omega)] at hz'
  cases hz'
  obtain ⟨A, hA, hu⟩ := bind_ok hu
  obtain ⟨y, hy', hu⟩ := bind_ok hu
  cases hu
  rw [set_val hy', firSum_val hA]
  simp only [if_true]
  congr 2
  have key : ∀ (js : List Int) (s : α), (∀ j ∈ js, t.2.mem j = yz.2.mem j) →
      js.foldl (fun A j => D.w (A + D.w (R.coef.mem (j - (i - R.half) + D.coefOff) * t.2.mem j))) s =
      js.foldl (fun A j => D.w (A + D.w (R.coef.mem (j - (i - R.half) + D.coefOff) * yz.2.mem j))) s := by
    intro js
    induction js with
    | nil => intro s _; rfl
    | cons j js ih =>
      intro s hs
      rw [List.foldl_cons, List.foldl_cons, hs j (by simp), ih _ fun k hk => hs k (by simp [hk])]
  refine key _ _ fun j hj => ?_
  have := mem_rangeI.mp hj
  exact hz j (hw j this.1 (by omega)).2

end Csu.Kdp
