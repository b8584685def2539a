import Verif.Lemmas.HeapSim
import Verif.Model.Objects3
import Verif.Lemmas.Kdp
/-!
# The KDP kernel on array objects computes what the value model computes
-/
namespace Csu.Heap
open Csu PyFloat Kdp
variable {α β γ δ ε σ τ : Type}

/-- a loop -/
theorem Sim.foldl {h0 : Heap α} {g : σ → β → HM α σ} {f : τ → β → Except PyErr τ} {Rel : Heap α → σ → τ → Prop} (js : List β)
    (step : ∀ j ∈ js, ∀ l s x, Rel (h0 ++ l) s x → Sim h0 (g s j) (h0 ++ l) (f x j) Rel) :
    ∀ l s x, Rel (h0 ++ l) s x → Sim h0 (js.foldlM g s) (h0 ++ l) (js.foldlM f x) Rel := by
  induction js with
  | nil => intro l s x r; exact Sim.pure r
  | cons j js ih =>
    intro l s x r
    rw [List.foldlM_cons, List.foldlM_cons]
    exact Sim.bind (step j (by simp) l s x r) (fun w v l' _ r' => ih (fun k hk => step k (by simp [hk])) l' w v r')

/-- a program whose value model returns `v`, as a step -/
theorem Sim.done {h0 h : Heap α} {p : HM α β} {x : Except PyErr γ} {v : γ} {R : Heap α → β → γ → Prop} (e : x = .ok v) (a : Sim h0 p h x R) :
    Sim h0 p h (.ok v) R := e ▸ a

theorem ok_bind {β γ : Type} (v : β) (f : β → Except PyErr γ) : ((Except.ok v : Except PyErr β) >>= f) = f v := rfl

variable [PyFloat α]

/-- the view shows the buffer `b` on the heap `h` -/
def Reads (h : Heap α) (v : View α) (b : Buf α) : Prop := ∃ dt xs, h[v.ref]? = some (.flt dt xs) ∧ b = v.buf xs

theorem Reads.more {h l : Heap α} {v : View α} {b : Buf α} (a : Reads h v b) : Reads (h ++ l) v b := by
  obtain ⟨dt, xs, e, rfl⟩ := a
  exact ⟨dt, xs, get_old e, rfl⟩

theorem Sim.read {h0 l : Heap α} {v : View α} {b : Buf α} {i : Int} {f : α → HM α δ} {x : Except PyErr ε} {S : Heap α → δ → ε → Prop}
    (a : Reads h0 v b) (k : Sim h0 (f (b.mem i)) (h0 ++ l) x S) : Sim h0 (v.get i >>= f) (h0 ++ l) x S := by
  obtain ⟨dt, xs, e, rfl⟩ := a
  refine Sim.of_eq ?_ k
  show HM.bind (HM.bind _ _) f _ = _
  simp only [HM.bind, show Heap.getF v.ref (h0 ++ l) = _ from runs_getF (get_old e)]
  rfl

theorem whole_buf (r : Ref) (n : Nat) (xs : List α) : (whole r n : View α).buf xs = ofList n xs := by
  unfold View.buf whole ofList
  congr 1
  funext i
  simp only [Nat.cast_zero, zero_add]
  by_cases h0 : 0 ≤ i
  · rw [if_pos h0]
    by_cases h1 : i < xs.length
    · rw [if_pos ⟨h0, h1⟩]
    · rw [if_neg (by simp [h1]), List.getD_eq_getElem?_getD, List.getElem?_eq_none (by omega)]; rfl
  · rw [if_neg h0, if_neg (by simp [h0])]

theorem Sim.own {h0 l : Heap α} {k n : Nat} {dt : DType} {xs : List α} {i : Int} {f : α → HM α δ} {x : Except PyErr ε} {S : Heap α → δ → ε → Prop}
    (e : l[k]? = some (.flt dt xs)) (b : Sim h0 (f ((ofList n xs).mem i)) (h0 ++ l) x S) :
    Sim h0 ((whole (h0.length + k) n : View α).get i >>= f) (h0 ++ l) x S := by
  refine Sim.of_eq ?_ b
  show HM.bind (HM.bind _ _) f _ = _
  have : (h0 ++ l)[(whole (h0.length + k) n : View α).ref]? = some (.flt dt xs) := get_new e
  simp only [HM.bind, show Heap.getF _ (h0 ++ l) = _ from runs_getF this]
  rw [← whole_buf (h0.length + k) n xs]
  rfl

theorem Sim.poke {h0 l : Heap α} {k : Nat} {dt : DType} {xs : List α} {i : Int} {v : α} {f : Unit → HM α δ} {x : Except PyErr ε}
    {S : Heap α → δ → ε → Prop} (e : l[k]? = some (.flt dt xs)) (b : Sim h0 (f ()) (h0 ++ l.set k (.flt dt (xs.set i.toNat v))) x S) :
    Sim h0 (Heap.poke (h0.length + k) i v >>= f) (h0 ++ l) x S := Sim.updF e b

theorem Sim.poke' {h0 l : Heap α} {k : Nat} {dt : DType} {xs : List α} {i : Int} {u : α} {v : γ}
    {S : Heap α → Unit → γ → Prop} (e : l[k]? = some (.flt dt xs)) (b : S (h0 ++ l.set k (.flt dt (xs.set i.toNat u))) () v) :
    Sim h0 (Heap.poke (h0.length + k) i u) (h0 ++ l) (.ok v) S := by
  refine ⟨l.set k (.flt dt (xs.set i.toNat u)), ?_, (), ?_, ?_⟩
  all_goals simp only [Heap.poke, Heap.updF, get_new e, ← set_new]
  rw [set_new]; exact b

theorem ofList_set {n : Nat} {xs : List α} {i : Int} {v : α} (nm : String) (h0 : 0 ≤ i) (h1 : i < xs.length) :
    (ofList n xs).set false nm i v = .ok (ofList n (xs.set i.toNat v)) := by
  unfold Buf.set ofList
  simp only [Bool.false_and, Bool.false_eq_true, if_false]
  congr 2
  funext j
  by_cases hj : j = i
  · subst hj
    rw [if_pos rfl, if_pos h0, List.getD_eq_getElem?_getD, List.getElem?_set_self (by omega)]; rfl
  · rw [if_neg hj]
    by_cases j0 : 0 ≤ j
    · rw [if_pos j0, if_pos j0, List.getD_eq_getElem?_getD, List.getD_eq_getElem?_getD, List.getElem?_set_ne (by omega)]
    · rw [if_neg j0, if_neg j0]

theorem rd_false (nm : String) (b : Buf α) (i : Int) : rd false nm b i = .ok (b.mem i) := rfl

/-! ## The kernel -/

/-- the kernel's five arrays -/
def st (Y Z K P S : List α) : Heap α := [.flt .float Y, .flt .float Z, .flt .float K, .flt .float P, .flt .float S]

/-- their references -/
def own (h0 : Heap α) : Own := ⟨h0.length + 0, h0.length + 1, h0.length + 2, h0.length + 3, h0.length + 4⟩

/-- the kernel's arguments as buffers -/
def RayH.ray (H : RayH α) (dp dz rng thsd coef : Buf α) : Ray α :=
  { n := H.n, dp := dp, dz := dz, rng := rng, thsd := thsd, nf := H.nf, bad := H.bad, order := H.order, gain := H.gain, coef := coef,
    stdGate := H.stdGate, nadp0 := H.nadp0 }

/-- the kernel's arguments on the heap `h` are those of `R` -/
structure Shows (h : Heap α) (H : RayH α) (R : Ray α) : Prop where
  ray : R = H.ray R.dp R.dz R.rng R.thsd R.coef
  dp : Reads h H.dp R.dp
  dz : Reads h H.dz R.dz
  rng : Reads h H.rng R.rng
  thsd : Reads h H.thsd R.thsd
  coef : Reads h H.coef R.coef

section
variable {h0 : Heap α} {H : RayH α} {R : Ray α} {D : Dialect α} {Y Z K P S : List α}

theorem Shows.n (s : Shows h0 H R) : R.n = H.n := by rw [s.ray]; rfl
theorem Shows.nf (s : Shows h0 H R) : R.nf = H.nf := by rw [s.ray]; rfl
theorem Shows.bad (s : Shows h0 H R) : R.bad = H.bad := by rw [s.ray]; rfl
theorem Shows.order (s : Shows h0 H R) : R.order = H.order := by rw [s.ray]; rfl
theorem Shows.gain (s : Shows h0 H R) : R.gain = H.gain := by rw [s.ray]; rfl
theorem Shows.half (s : Shows h0 H R) : R.half = H.half := by rw [s.ray]; rfl
theorem Shows.halfStd (s : Shows h0 H R) : R.halfStd = H.halfStd := by rw [s.ray]; rfl
theorem Shows.nadp0 (s : Shows h0 H R) : R.nadp0 = H.nadp0 := by rw [s.ray]; rfl
theorem Shows.nadpOf (s : Shows h0 H R) (d : α) (k : Int) : Kdp.nadpOf R d k = H.nadpOf d k := by
  unfold Kdp.nadpOf RayH.nadpOf; rw [s.half]

theorem good_sim (s : Shows h0 H R) (j : Int) :
    Sim h0 (goodH H (own h0) j) (h0 ++ st Y Z K P S) (good false R (ofList H.n S) (ofList H.n Z) j) (fun g w v => g = h0 ++ st Y Z K P S ∧ w = v) := by
  unfold goodH good
  rw [rd_false, rd_false, rd_false, s.bad]
  refine Sim.own (k := 4) rfl (Sim.read s.thsd ?_)
  simp only [ok_bind]
  refine Sim.ite (fun _ => Sim.own (k := 1) rfl (Sim.pure ⟨rfl, rfl⟩)) (fun _ => Sim.pure ⟨rfl, rfl⟩)

theorem collect_sim (s : Shows h0 H R) (js : List Int) :
    Sim h0 (collectH H (own h0) js) (h0 ++ st Y Z K P S) (collect false R (ofList H.n S) (ofList H.n Z) js)
      (fun g w v => g = h0 ++ st Y Z K P S ∧ w = v) := by
  refine Sim.foldl js ?_ _ _ _ ⟨rfl, rfl⟩
  rintro j - l a b ⟨e, rfl⟩
  rw [List.append_cancel_left e]
  refine Sim.bind (good_sim s j) ?_
  rintro w v l' - ⟨e', rfl⟩
  rw [e', rd_false, rd_false]
  refine Sim.ite (fun _ => Sim.own (k := 1) rfl (Sim.read s.rng (Sim.pure ⟨rfl, rfl⟩))) (fun _ => Sim.pure ⟨rfl, rfl⟩)

/-- the heap during the filter, and the buffers `y`, `z` -/
def FirRel (h0 : Heap α) (n : Nat) (K P S : List α) (g : Heap α) (_ : Unit) (yz : Buf α × Buf α) : Prop :=
  ∃ Y Z, Y.length = n ∧ Z.length = n ∧ g = h0 ++ st Y Z K P S ∧ yz = (ofList n Y, ofList n Z)

theorem mem_rangeI {a b j : Int} (h : j ∈ rangeI a b) : a ≤ j ∧ j < b := by
  unfold rangeI at h
  obtain ⟨k, hk, rfl⟩ := List.mem_map.mp h
  have := List.mem_range.mp hk
  simp only [Int.ofNat_eq_natCast]
  omega

theorem fill_sim (s : Shows h0 H R) (ab : α × α) (js : List Int) (hj : ∀ j ∈ js, 0 ≤ j ∧ j < H.n) (hZ : Z.length = H.n) :
    Sim h0 (fillH D H (own h0) ab js) (h0 ++ st Y Z K P S) (fill D false R ab js (ofList H.n Z))
      (fun g _ z => ∃ Z', Z'.length = H.n ∧ g = h0 ++ st Y Z' K P S ∧ z = ofList H.n Z') := by
  refine Sim.foldl (Rel := fun g _ z => ∃ Z', Z'.length = H.n ∧ g = h0 ++ st Y Z' K P S ∧ z = ofList H.n Z') js ?_ _ _ _ ⟨Z, hZ, rfl, rfl⟩
  rintro j hm l - b ⟨Z', hl, e, rfl⟩
  rw [List.append_cancel_left e, rd_false, rd_false, s.bad]
  refine Sim.own (k := 1) rfl ?_
  simp only [ok_bind]
  refine Sim.ite (fun _ => ?_) (fun _ => Sim.pure ⟨Z', hl, rfl, rfl⟩)
  rw [ofList_set _ (hj j hm).1 (by rw [hl]; exact (hj j hm).2)]
  exact Sim.read s.rng (Sim.poke' (k := 1) rfl ⟨_, by rw [List.length_set, hl], rfl, rfl⟩)

theorem firSum_sim (s : Shows h0 H R) (lo : Int) (js : List Int) :
    Sim h0 (firSumH D H (own h0) lo js) (h0 ++ st Y Z K P S) (firSum D false R (ofList H.n Z) lo js) (fun g w v => g = h0 ++ st Y Z K P S ∧ w = v) := by
  refine Sim.foldl js ?_ _ _ _ ⟨rfl, rfl⟩
  rintro j - l a b ⟨e, rfl⟩
  rw [List.append_cancel_left e, rd_false, rd_false]
  exact Sim.read s.coef (Sim.own (k := 1) rfl (Sim.pure ⟨rfl, rfl⟩))

theorem firGate_sim (s : Shows h0 H R) (i : Int) (hi : i ∈ rangeI H.half ((H.n : Int) - H.half)) (l : Heap α) (u : Unit) (yz : Buf α × Buf α)
    (r : FirRel h0 H.n K P S (h0 ++ l) u yz) :
    Sim h0 (firGateH D H (own h0) u i) (h0 ++ l) (firGate D false R (ofList H.n S) yz i) (FirRel h0 H.n K P S) := by
  obtain ⟨Y, Z, hY, hZ, e, rfl⟩ := r
  rw [List.append_cancel_left e]
  unfold firGateH firGate
  have hi := mem_rangeI hi
  refine Sim.bind (good_sim s i) ?_
  rintro w v l' - ⟨e', rfl⟩
  rw [e']
  refine Sim.ite (fun _ => ?_) (fun _ => Sim.pure ⟨Y, Z, hY, hZ, rfl, rfl⟩)
  dsimp only
  rw [s.half, s.order, s.gain, s.bad]
  refine Sim.bind (collect_sim s _) ?_
  rintro pts _ l' - ⟨e', rfl⟩
  rw [e']
  refine Sim.ite (fun _ => ?_) (fun _ => Sim.pure ⟨Y, Z, hY, hZ, rfl, rfl⟩)
  refine Sim.bind (R := fun g _ z => ∃ Z', Z'.length = H.n ∧ g = h0 ++ st Y Z' K P S ∧ z = ofList H.n Z')
    (Sim.ite (fun _ => ?_) (fun _ => Sim.pure ⟨Z, hZ, rfl, rfl⟩)) ?_
  · exact Sim.lift (fun ab _ => fill_sim s ab _ (fun j hj => by have := mem_rangeI hj; omega) hZ)
  · rintro - z l' - ⟨Z', hZ', e', rfl⟩
    rw [e']
    refine Sim.bind (firSum_sim s _ _) ?_
    rintro A _ l' - ⟨e', rfl⟩
    rw [e', ofList_set _ (by omega) (by rw [hY]; omega)]
    exact Sim.poke' (k := 0) rfl ⟨_, Z', by rw [List.length_set, hY], hZ', rfl, rfl⟩

theorem rangeI_cons {a b : Int} (h : a < b) : rangeI a b = a :: rangeI (a + 1) b := by
  unfold rangeI
  have e : (b - a).toNat = (b - (a + 1)).toNat + 1 := by omega
  rw [e, List.range_succ_eq_map, List.map_cons, List.map_map]
  congr 1
  · simp
  · apply List.map_congr_left
    intro k _
    simp only [Function.comp, Int.ofNat_eq_natCast, Nat.cast_succ]
    omega

theorem rangeI_nil {a b : Int} (h : b ≤ a) : rangeI a b = [] := by
  unfold rangeI
  rw [show (b - a).toNat = 0 by omega]; rfl

theorem set_mid {pre rest : List α} {x v : α} {k : Nat} (h : pre.length = k) : (pre ++ x :: rest).set k v = pre ++ v :: rest := by
  subst h
  simp

theorem ofList_mid {n : Nat} {pre rest : List α} {x : α} {k : Nat} (h : pre.length = k) : (ofList n (pre ++ x :: rest)).mem k = x := by
  subst h
  unfold ofList
  simp

/-- copying element by element -/
theorem copy_loop {l0 : Heap α} (a b : Nat) (hab : a ≠ b) (A : List α) (n : Nat) (hA : A.length = n) :
    ∀ (m k : Nat) (l : Heap α) (R : List α), k + m = n → R.length = m → l[a]? = some (.flt .float A) → l[b]? = some (.flt .float (A.take k ++ R)) →
    Sim l0 ((rangeI k n).foldlM (fun _ i => do
      let v ← (whole (l0.length + a) n : View α).get i
      Heap.poke (l0.length + b) i v) ()) (l0 ++ l) (.ok ()) (fun g _ _ => g = l0 ++ l.set b (.flt .float A)) := by
  intro m
  induction m with
  | zero =>
    intro k l R hk hR ha hb
    rw [rangeI_nil (by omega), List.foldlM_nil]
    refine Sim.pure ?_
    rw [List.length_eq_zero_iff] at hR
    subst hR
    rw [List.append_nil, List.take_of_length_le (by omega)] at hb
    congr 1
    obtain ⟨hlt, he⟩ := List.getElem?_eq_some_iff.mp hb
    rw [← he]; simp
  | succ m ih =>
    intro k l R hk hR ha hb
    rw [rangeI_cons (by omega), List.foldlM_cons]
    match R, hR with
    | x :: R, hR =>
      have hkA : k < A.length := by omega
      refine Sim.step (v := ()) (R := fun g _ _ => g = l0 ++ l.set b (.flt .float (A.take (k + 1) ++ R))) ?_ ?_
      · refine Sim.own ha (Sim.poke' hb ?_)
        congr 3
        rw [Int.toNat_natCast, set_mid (by rw [List.length_take]; omega), List.take_succ_eq_append_getElem hkA, List.append_assoc]
        congr 2
        unfold ofList
        simp [hkA]
      · rintro - l' e
        rw [List.append_cancel_left e]
        have := ih (k + 1) (l.set b (.flt .float (A.take (k + 1) ++ R))) R (by omega) (by simpa using hR)
          (by rw [List.getElem?_set_ne hab.symm]; exact ha) (by
            rw [List.getElem?_set_self]
            exact (List.getElem?_eq_some_iff.mp hb).1)
        rw [List.set_set] at this
        exact_mod_cast this

theorem copy_sim {l0 l : Heap α} (a b : Nat) (hab : a ≠ b) (A B : List α) (n : Nat) (hA : A.length = n) (hB : B.length = n)
    (ha : l[a]? = some (.flt .float A)) (hb : l[b]? = some (.flt .float B)) :
    Sim l0 (copyInto (l0.length + a) (l0.length + b) n) (l0 ++ l) (.ok ()) (fun g _ _ => g = l0 ++ l.set b (.flt .float A)) :=
  copy_loop a b hab A n hA n 0 l B (by omega) hB ha (by simpa using hb)

theorem firPass_sim (s : Shows h0 H R) (l : Heap α) (u : Unit) (yz : Buf α × Buf α) (r : FirRel h0 H.n K P S (h0 ++ l) u yz) :
    Sim h0 (firPassH D H (own h0)) (h0 ++ l) (firPass D false R (ofList H.n S) yz) (FirRel h0 H.n K P S) := by
  unfold firPassH firPass
  rw [s.half, s.n]
  refine Sim.bind (Sim.foldl _ (fun j hj l' u x r' => firGate_sim s j hj l' u x r') _ _ _ r) ?_
  rintro - yz' l' - ⟨Y, Z, hY, hZ, e, rfl⟩
  rw [List.append_cancel_left e]
  obtain ⟨l, e, w, e1, e2⟩ := copy_sim (l0 := h0) (l := st Y Z K P S) 0 1 (by decide) Y Z H.n hY hZ rfl rfl
  exact ⟨l, e, w, e1, Y, Y, hY, hY, e2, rfl⟩

theorem firPasses_sim (s : Shows h0 H R) : ∀ (k : Nat) (l : Heap α) (yz : Buf α × Buf α), FirRel h0 H.n K P S (h0 ++ l) () yz →
    Sim h0 (firPassesH D H (own h0) k) (h0 ++ l) (firPasses D false R (ofList H.n S) k yz) (FirRel h0 H.n K P S) := by
  intro k
  induction k with
  | zero => intro l yz r; exact Sim.pure r
  | succ k ih =>
    intro l yz r
    exact Sim.bind (firPass_sim s l () yz r) (fun w v l' _ r' => ih l' v r')

theorem mapM_rd (nm : String) (b : Buf α) (js : List Int) : js.mapM (rd false nm b) = .ok (js.map b.mem) := by
  induction js with
  | nil => rfl
  | cons j js ih => rw [List.mapM_cons, ih]; rfl

theorem foldlM_ok (f : σ → β → σ) (js : List β) (s : σ) : js.foldlM (fun s j => (Except.ok (f s j) : Except PyErr σ)) s = .ok (js.foldl f s) := by
  induction js generalizing s with
  | nil => rfl
  | cons j js ih => rw [List.foldlM_cons, ok_bind, ih]; rfl

theorem sdGate_sim (s : Shows h0 H R) (k : Nat) :
    Sim h0 (sdGateH D H (own h0) () k) (h0 ++ st Y Z K P S) (sdAt D false R k)
      (fun g _ v => g = h0 ++ st (Y.set k H.bad) (Z.set k (R.dp.mem k)) (K.set k H.bad) P (S.set k v)) := by
  unfold sdGateH sdAt
  rw [s.halfStd, s.n, s.bad]
  refine Sim.poke (k := 2) rfl (Sim.poke (k := 4) rfl (Sim.poke (k := 0) rfl (Sim.read s.dp (Sim.poke (k := 1) rfl ?_))))
  rw [show ((k : Int)).toNat = k from Int.toNat_natCast k]
  show Sim h0 _ (h0 ++ st (Y.set k H.bad) (Z.set k (R.dp.mem k)) (K.set k H.bad) P (S.set k 100.0)) _ _
  refine Sim.ite (fun _ => ?_) (fun _ => Sim.pure rfl)
  rw [mapM_rd, ok_bind]
  dsimp only
  rw [List.foldl_map]
  refine Sim.step (v := (rangeI (k - H.halfStd) (k + H.halfStd + 1)).foldl (fun s j => sdStep D H.bad s (R.dp.mem j)) ⟨0, 0.0, 0.0, 0.0⟩)
    (R := fun g w v => g = h0 ++ st (Y.set k H.bad) (Z.set k (R.dp.mem k)) (K.set k H.bad) P (S.set k 100.0) ∧ w = v) ?_ ?_
  · refine Sim.done (foldlM_ok _ _ _) (Sim.foldl _ ?_ _ _ _ ⟨rfl, rfl⟩)
    rintro j - l a b ⟨e, rfl⟩
    exact Sim.read s.dp (Sim.pure ⟨e, rfl⟩)
  · rintro w l ⟨e, rfl⟩
    rw [e]
    refine Sim.ite (fun _ => ?_) (fun _ => Sim.pure rfl)
    refine Sim.ite (fun _ => Sim.raise) (fun _ => Sim.poke' (k := 4) rfl ?_)
    show _ ++ st _ _ _ P ((S.set k 100.0).set (k : Int).toNat _) = _
    rw [Int.toNat_natCast, List.set_set]

theorem sdLoop_sim (s : Shows h0 H R) : ∀ (m k : Nat) (pY pZ pK pS rY rZ rK rS : List α), k + m = H.n → pY.length = k → pZ.length = k →
    pK.length = k → pS.length = k → rY.length = m → rZ.length = m → rK.length = m → rS.length = m →
    Sim h0 ((rangeI k H.n).foldlM (sdGateH D H (own h0)) ()) (h0 ++ st (pY ++ rY) (pZ ++ rZ) (pK ++ rK) P (pS ++ rS))
      ((rangeI k H.n).mapM (sdAt D false R)) (fun g _ sd => sd.length = m ∧
        g = h0 ++ st (pY ++ List.replicate m H.bad) (pZ ++ (rangeI k H.n).map R.dp.mem) (pK ++ List.replicate m H.bad) P (pS ++ sd)) := by
  intro m
  induction m with
  | zero =>
    intro k pY pZ pK pS rY rZ rK rS hk _ _ _ _ a b c d
    rw [rangeI_nil (by omega), List.foldlM_nil, List.mapM_nil]
    rw [List.length_eq_zero_iff] at a b c d
    subst a b c d
    refine Sim.pure ⟨rfl, ?_⟩
    simp
  | succ m ih =>
    intro k pY pZ pK pS rY rZ rK rS hk a1 a2 a3 a4 b1 b2 b3 b4
    match rY, rZ, rK, rS, b1, b2, b3, b4 with
    | y :: rY, z :: rZ, x :: rK, t :: rS, b1, b2, b3, b4 =>
      rw [rangeI_cons (by omega), List.foldlM_cons, List.mapM_cons]
      refine Sim.bind (sdGate_sim s k) ?_
      rintro - v l - e
      rw [e, set_mid a1, set_mid a2, set_mid a3, set_mid a4]
      have := ih (k + 1) (pY ++ [H.bad]) (pZ ++ [R.dp.mem k]) (pK ++ [H.bad]) (pS ++ [v]) rY rZ rK rS (by omega) (by simp [a1]) (by simp [a2]) (by simp [a3])
        (by simp [a4]) (by simpa using b1) (by simpa using b2) (by simpa using b3) (by simpa using b4)
      simp only [List.append_assoc, List.singleton_append, Nat.cast_add, Nat.cast_one] at this
      obtain ⟨l2, e2, this⟩ := this
      refine ⟨l2, e2, ?_⟩
      cases hx : (rangeI ((k : Int) + 1) H.n).mapM (sdAt D false R) with
      | error y => rw [hx] at this; exact this
      | ok sd =>
        rw [hx] at this
        obtain ⟨w, e3, e4, e5⟩ := this
        refine ⟨w, e3, by simp [e4], ?_⟩
        rw [e5]
        simp [List.replicate_succ]

theorem kdpCollect_sim (s : Shows h0 H R) (js : List Int) :
    Sim h0 (kdpCollectH H (own h0) js) (h0 ++ st Y Z K P S) (kdpCollect false R (ofList H.n P) js)
      (fun g w v => g = h0 ++ st Y Z K P S ∧ w = v) := by
  refine Sim.foldl js ?_ _ _ _ ⟨rfl, rfl⟩
  rintro j - l a b ⟨e, rfl⟩
  rw [List.append_cancel_left e, rd_false, rd_false, s.bad]
  refine Sim.own (k := 3) rfl ?_
  rw [ok_bind]
  exact Sim.ite (fun _ => Sim.read s.rng (Sim.pure ⟨rfl, rfl⟩)) (fun _ => Sim.pure ⟨rfl, rfl⟩)

theorem kdpGate_sim (s : Shows h0 H R) (nadp : Int) (k : Nat) (hK : K.set k H.bad = K) :
    Sim h0 (kdpGateH D H (own h0) nadp k) (h0 ++ st Y Z K P S) (kdpGate D false R (ofList H.n P) nadp k)
      (fun g w v => w = v.2 ∧ g = h0 ++ st Y Z (K.set k v.1) P S) := by
  unfold kdpGateH kdpGate
  rw [rd_false, ok_bind, s.bad]
  refine Sim.read s.dz (Sim.ite (fun _ => ?_) (fun _ => Sim.pure ⟨rfl, by rw [hK]⟩))
  dsimp only
  rw [s.nadpOf, s.n]
  refine Sim.bind (R := fun g w v => g = h0 ++ st Y Z K P S ∧ w = v) (Sim.ite (fun _ => kdpCollect_sim s _) (fun _ => Sim.pure ⟨rfl, rfl⟩)) ?_
  rintro pts _ l - ⟨e, rfl⟩
  rw [e]
  refine Sim.ite (fun _ => ?_) (fun _ => Sim.pure ⟨rfl, by rw [hK]⟩)
  exact Sim.lift (fun ab _ => Sim.poke (k := 2) rfl (Sim.pure ⟨rfl, rfl⟩))

theorem kdpLoop_sim (s : Shows h0 H R) : ∀ (m k : Nat) (pK : List α) (nadp : Int), k + m = H.n → pK.length = k →
    Sim h0 ((rangeI k H.n).foldlM (kdpGateH D H (own h0)) nadp) (h0 ++ st Y Z (pK ++ List.replicate m H.bad) P S)
      (kdpLoop D false R (ofList H.n P) (rangeI k H.n) nadp) (fun g _ kd => g = h0 ++ st Y Z (pK ++ kd) P S) := by
  intro m
  induction m with
  | zero =>
    intro k pK nadp hk _
    rw [rangeI_nil (by omega), List.foldlM_nil]
    exact Sim.pure (by simp)
  | succ m ih =>
    intro k pK nadp hk a
    rw [rangeI_cons (by omega), List.foldlM_cons, kdpLoop]
    refine Sim.bind (kdpGate_sim s nadp k (by rw [List.replicate_succ, set_mid a])) ?_
    rintro w v l - ⟨rfl, e⟩
    rw [e, List.replicate_succ, set_mid a]
    have := ih (k + 1) (pK ++ [v.1]) v.2 (by omega) (by simp [a])
    simp only [List.append_assoc, List.singleton_append, Nat.cast_add, Nat.cast_one] at this
    obtain ⟨l2, e2, this⟩ := this
    refine ⟨l2, e2, ?_⟩
    dsimp only
    cases hx : kdpLoop D false R (ofList H.n P) (rangeI ((k : Int) + 1) H.n) v.2 with
    | error y => rw [hx] at this; exact this
    | ok kd =>
      rw [hx] at this
      obtain ⟨w, e3, e5⟩ := this
      exact ⟨w, e3, e5⟩

/-- the kernel: three new arrays with the values of the value model -/
theorem kernel_sim (s : Shows h0 H R) :
    Sim h0 (calcKdpRayFirH D H) h0 (calcKdpRayFir D false R) (fun g w out => w = (h0.length + 2, h0.length + 3, h0.length + 4) ∧
      out.kd.length = H.n ∧ out.dp.length = H.n ∧ out.sd.length = H.n ∧
      ∃ Y Z, g = h0 ++ st Y Z out.kd out.dp out.sd) := by
  unfold calcKdpRayFirH calcKdpRayFir
  rw [mapM_rd, ok_bind, s.n, s.nf, s.bad, s.nadp0]
  nth_rw 2 [show h0 = h0 ++ [] by simp]
  refine Sim.new (Sim.new (Sim.new (Sim.new (Sim.new ?_))))
  show Sim h0 ((gates H.n).foldlM (sdGateH D H (own h0)) () >>= fun _ => _) (h0 ++ st (List.replicate H.n 0) (List.replicate H.n 0) (List.replicate H.n 0)
    (List.replicate H.n 0) (List.replicate H.n 0)) _ _
  refine Sim.bind (by
    have := sdLoop_sim (D := D) (P := List.replicate H.n 0) s H.n 0 [] [] [] [] (List.replicate H.n 0) (List.replicate H.n 0) (List.replicate H.n 0) (List.replicate H.n 0)
      (by omega) rfl rfl rfl rfl (by simp) (by simp) (by simp) (by simp)
    simp only [List.nil_append] at this
    exact this) ?_
  rintro - sd l - ⟨hsd, e⟩
  rw [e]
  refine Sim.bind (firPasses_sim s H.nf _ _ ⟨_, _, ?_, ?_, rfl, rfl⟩) ?_
  · simp
  · simp [rangeI]
  rintro - yz l - ⟨Y, Z, hY, hZ, e, rfl⟩
  rw [e]
  refine Sim.step (v := ()) (copy_sim 1 3 (by decide) Z (List.replicate H.n 0) H.n hZ (by simp) rfl rfl) ?_
  rintro - l e
  rw [e]
  show Sim h0 _ (h0 ++ st Y Z (List.replicate H.n H.bad) Z sd) _ _
  have hz : (gates H.n).map (ofList H.n Z).mem = Z := by
    unfold gates rangeI ofList
    apply List.ext_getElem
    · simp [hZ]
    · intro i h1 h2
      simp [h2]
  refine Sim.bind (by
    have := kdpLoop_sim (D := D) (Y := Y) (Z := Z) (P := Z) (S := sd) s H.n 0 [] H.nadp0 (by omega) rfl
    simp only [List.nil_append] at this
    exact this) ?_
  rintro - kd l hkd e
  rw [e, hz]
  refine Sim.pure ⟨rfl, ?_, hZ, hsd, Y, Z, rfl⟩
  rw [(kdpLoop_get hkd).1]
  simp [gates, rangeI]
end
end Csu.Heap
