import Verif.Lemmas.HeapFhc
import Verif.Lemmas.Melt
/-!
# The melting layer on array objects computes what the value model computes
-/
namespace Csu.Heap
open Csu PyFloat Tables Fhc
variable {α : Type} {β γ δ ε : Type}

/-- the object `r` is the only one of `g` that may have changed -/
def Only (r : Ref) (g g' : Heap α) : Prop := ∀ (q : Ref) (c : Cell α), q ≠ r → g[q]? = some c → g'[q]? = some c

theorem Only.trans {r : Ref} {g g' g'' : Heap α} (a : Only r g g') (b : Only r g' g'') : Only r g g'' :=
  fun q c hq e => b q c hq (a q c hq e)

theorem Unchanged.only {r : Ref} {g g' : Heap α} (a : Unchanged g g') : Only r g g' := fun q c _ e => a q c e

theorem unchanged_append (g l : Heap α) : Unchanged g (g ++ l) := fun _ _ e => get_old e

theorem Unchanged.trans {g g' g'' : Heap α} (a : Unchanged g g') (b : Unchanged g' g'') : Unchanged g g'' := fun q c e => b q c (a q c e)

theorem ne_of_new {g : Heap α} {q r : Ref} {c : Cell α} (e : g[q]? = some c) (hr : IsNew g r) : q ≠ r := by
  rintro rfl
  rw [show g[q]? = none from hr] at e
  cases e

theorem Sim.nil {h : Heap α} {p : HM α β} {x : Except PyErr γ} {R : Heap α → β → γ → Prop} (a : Sim h p (h ++ []) x R) : Sim h p h x R := by
  rw [List.append_nil] at a; exact a

theorem Sim.new_at {h0 l : Heap α} {c : Cell α} {f : Ref → HM α δ} {x : Except PyErr ε} {S : Heap α → δ → ε → Prop}
    (b : ∀ r l', h0.length ≤ r → IsNew (h0 ++ l) r → Unchanged (h0 ++ l) (h0 ++ l') → (h0 ++ l')[r]? = some c → Sim h0 (f r) (h0 ++ l') x S) :
    Sim h0 (Heap.new c >>= f) (h0 ++ l) x S := by
  refine Sim.new ?_
  refine b _ _ (by omega) (List.getElem?_eq_none (by simp)) ?_ (get_new (by simp))
  rw [← List.append_assoc]
  exact unchanged_append _ _

theorem Sim.updI_at {h0 l : Heap α} {r : Ref} {g : List Int → List Int} {xs : List Int} {f : Unit → HM α δ} {x : Except PyErr ε}
    {S : Heap α → δ → ε → Prop} (hr : h0.length ≤ r) (e : (h0 ++ l)[r]? = some (.int xs))
    (b : ∀ l', Only r (h0 ++ l) (h0 ++ l') → (h0 ++ l')[r]? = some (.int (g xs)) → Sim h0 (f ()) (h0 ++ l') x S) :
    Sim h0 (Heap.updI r g >>= f) (h0 ++ l) x S := by
  obtain ⟨j, rfl⟩ : ∃ j, r = h0.length + j := ⟨r - h0.length, (Nat.add_sub_cancel' hr).symm⟩
  have e3 : l[j]? = some (.int xs) := by
    rw [List.getElem?_append_right (by omega), show h0.length + j - h0.length = j by omega] at e
    exact e
  refine Sim.updI e3 (b _ ?_ (get_new (by rw [List.getElem?_set_self (List.getElem?_eq_some_iff.mp e3).1])))
  intro q c hq e
  rw [← set_new, List.getElem?_set_ne (Ne.symm hq)]
  exact e

theorem Sim.updF_at {h0 l : Heap α} {r : Ref} {g : List α → List α} {dt : DType} {xs : List α} {f : Unit → HM α δ} {x : Except PyErr ε}
    {S : Heap α → δ → ε → Prop} (hr : h0.length ≤ r) (e : (h0 ++ l)[r]? = some (.flt dt xs))
    (b : ∀ l', Only r (h0 ++ l) (h0 ++ l') → (h0 ++ l')[r]? = some (.flt dt (g xs)) → Sim h0 (f ()) (h0 ++ l') x S) :
    Sim h0 (Heap.updF r g >>= f) (h0 ++ l) x S := by
  obtain ⟨j, rfl⟩ : ∃ j, r = h0.length + j := ⟨r - h0.length, (Nat.add_sub_cancel' hr).symm⟩
  have e3 : l[j]? = some (.flt dt xs) := by
    rw [List.getElem?_append_right (by omega), show h0.length + j - h0.length = j by omega] at e
    exact e
  refine Sim.updF e3 (b _ ?_ (get_new (by rw [List.getElem?_set_self (List.getElem?_eq_some_iff.mp e3).1])))
  intro q c hq e
  rw [← set_new, List.getElem?_set_ne (Ne.symm hq)]
  exact e

theorem bind_assoc' {p : HM α β} {g : β → HM α γ} {f : γ → HM α δ} : ((p >>= g) >>= f) = (p >>= fun x => g x >>= f) := by
  funext h
  show HM.bind (HM.bind p g) f h = HM.bind p (fun x => HM.bind (g x) f) h
  unfold HM.bind
  rcases p h with ⟨r, k⟩
  cases r <;> rfl

/-- an assignment as the last statement -/
theorem Sim.last {h0 h : Heap α} {p : HM α Unit} {x : Except PyErr γ} {R : Heap α → Unit → γ → Prop}
    (a : Sim h0 (p >>= fun _ => Pure.pure ()) h x R) : Sim h0 p h x R := by
  have : (p >>= fun _ => Pure.pure ()) h = p h := by
    show HM.bind p _ h = _
    unfold HM.bind
    rcases hp : p h with ⟨r, g⟩
    cases r <;> rfl
  exact Sim.of_eq this.symm a

variable [PyFloat α]

theorem NewRows.upd {n : Nat} {g g' : Heap α} {r : Ref} {xs : List Int} {mu : List Ref} {rows : List (List α)} (e : NewRows n g mu rows)
    (hr : g[r]? = some (.int xs)) (o : Only r g g') : NewRows n g' mu rows := by
  refine forall₂_weaken (fun q row a => ⟨a.1, o q _ ?_ a.2⟩) e
  rintro rfl
  have := a.2
  rw [hr] at this
  cases this

theorem NewRows.unchanged {n : Nat} {g g' : Heap α} {mu : List Ref} {rows : List (List α)} (e : NewRows n g mu rows)
    (o : Unchanged g g') : NewRows n g' mu rows := forall₂_weaken (fun _ _ a => ⟨a.1, o _ _ a.2⟩) e

/-- `rho` as objects and as a value -/
def HoldsRho (h : Heap α) : RhoRef → RhoArg α → Prop
  | .none, .none => True
  | .plain f, .plain a => h[f.ref]? = some (.flt a.dtype a.data) ∧ f.shape = a.shape
  | .masked f none, .masked m => h[f.ref]? = some (.flt m.arr.dtype m.arr.data) ∧ f.shape = m.arr.shape ∧ m.mask = m.arr.data.map (fun _ => false)
  | .masked f (some b), .masked m => h[f.ref]? = some (.flt m.arr.dtype m.arr.data) ∧ f.shape = m.arr.shape ∧ h[b]? = some (.bool m.mask)
  | _, _ => False

theorem HoldsRho.arr {h : Heap α} {R : RhoRef} {a : RhoArg α} (e : HoldsRho h R a) : HoldsArr h R.array a.array := by
  cases R with
  | none => cases a <;> first | exact e | exact e.elim
  | plain f => cases a <;> first | exact e | exact e.elim
  | masked f b =>
    cases b <;> cases a <;> first | exact e.elim | exact ⟨e.1, e.2.1⟩

theorem length_classify (sz : Nat) (rows : List (List α)) : (classify sz rows).length = sz := by simp [classify]

theorem maskSet_isnan (hn : isnan (PyFloat.nan : α) = true) (b : List Bool) (l : List α) :
    (maskSet b PyFloat.nan l).map isnan = List.zipWith (fun m x => m || isnan x) b l := by
  unfold maskSet
  rw [List.map_zipWith]
  congr 1
  funext c x
  cases c
  · simp
  · simp [hn]

theorem maskSet_toInt (b : List Bool) (v : Nat) (l : List Nat) : (maskSet b v l).map Int.ofNat = maskSet b (Int.ofNat v) (l.map Int.ofNat) := by
  unfold maskSet
  rw [List.map_zipWith, List.zipWith_map_right]
  congr 1
  funext c x
  cases c <;> simp

theorem map_const {ι κ : Type} (v : β) (l : List ι) (m : List κ) (h : l.length = m.length) : l.map (fun _ => v) = m.map (fun _ => v) := by
  rw [List.map_const', List.map_const', h]

/-- `filled(nan)` followed by reading it -/
theorem filledH_sim {h0 l : Heap α} (hn : isnan (PyFloat.nan : α) = true) {a : FRef} {mask : Option Ref} {m : Masked α}
    (e : HoldsRho h0 (.masked a mask) (.masked m)) {f : Ref → HM α δ} {x : Except PyErr ε} {S : Heap α → δ → ε → Prop}
    (b : ∀ r dt xs l', Unchanged (h0 ++ l) (h0 ++ l') → (h0 ++ l')[r]? = some (.flt dt xs) →
      xs.map isnan = List.zipWith (fun m x => m || isnan x) m.mask m.arr.data → Sim h0 (f r) (h0 ++ l') x S) :
    Sim h0 (filledH a mask >>= f) (h0 ++ l) x S := by
  cases mask with
  | none =>
    refine Sim.of_eq (q := f a.ref) (g := h0 ++ l) rfl ?_
    refine b _ _ _ l (fun _ _ h => h) (get_old e.1) ?_
    rw [e.2.2, List.zipWith_map_left, List.zipWith_self]
    simp
  | some mk =>
    unfold filledH
    rw [bind_assoc']
    refine Sim.getF (get_old e.1) ?_
    dsimp only
    rw [bind_assoc']
    refine Sim.getB (get_old e.2.2) ?_
    rw [bind_assoc']
    refine Sim.new_at fun r l1 hr nr u e4 => ?_
    rw [bind_assoc']
    refine Sim.updF_at hr e4 fun l2 o e5 => ?_
    refine b r _ _ l2 ?_ e5 (maskSet_isnan hn _ _)
    intro q c hq
    exact o q c (ne_of_new hq nr) (u q c hq)

/-- the quality control changes only the category array -/
theorem qc_sim {h0 l : Heap α} (hn : isnan (PyFloat.nan : α) = true) {fh : Ref} {fhv : List Int} (hr : h0.length ≤ fh)
    (ef : (h0 ++ l)[fh]? = some (.int fhv)) (snThresh minRH : α) {sn : Option FRef} {snv : Option (NdArray α)} (es : HoldsArr h0 sn snv)
    {a : FRef} {mask : Option Ref} {m : Masked α} (e : HoldsRho h0 (.masked a mask) (.masked m))
    {f : Unit → HM α δ} {x : Except PyErr ε} {S : Heap α → δ → ε → Prop}
    (b : ∀ l', Only fh (h0 ++ l) (h0 ++ l') →
      (h0 ++ l')[fh]? = some (.int (qualityControl (snv.map (·.data)) snThresh m minRH fhv)) → Sim h0 (f ()) (h0 ++ l') x S) :
    Sim h0 (snQcH snThresh fh sn >>= fun _ => rhoQcH minRH fh a mask >>= f) (h0 ++ l) x S := by
  have s1 : Sim h0 (snQcH snThresh fh sn) (h0 ++ l) (.ok ()) (fun g _ _ => Only fh (h0 ++ l) g ∧
      g[fh]? = some (.int (match snv.map (·.data) with
        | none => fhv
        | some s => maskSet (s.map (fun x => x <. snThresh)) 0 fhv))) := by
    cases sn with
    | none =>
      cases snv with
      | none => exact Sim.pure ⟨fun _ _ _ h => h, ef⟩
      | some _ => exact es.elim
    | some sn =>
      cases snv with
      | none => exact es.elim
      | some s =>
        unfold snQcH
        refine Sim.getF (get_old es.1) ?_
        dsimp only
        refine Sim.last (Sim.updI_at hr ef fun l' o e' => Sim.pure ⟨o, e'⟩)
  refine Sim.step s1 fun _ l1 r1 => ?_
  have ha : h0[a.ref]? = some (.flt m.arr.dtype m.arr.data) := by cases mask <;> exact e.1
  have s2 : Sim h0 (rhoQcH minRH fh a mask) (h0 ++ l1) (.ok ()) (fun g _ _ => Only fh (h0 ++ l) g ∧
      g[fh]? = some (.int (qualityControl (snv.map (·.data)) snThresh m minRH fhv))) := by
    unfold rhoQcH
    refine filledH_sim hn e fun r dt xs l2 u er en => ?_
    refine Sim.getF er ?_
    dsimp only
    refine Sim.updI_at hr (u _ _ r1.2) fun l3 o3 e3 => ?_
    refine Sim.getF (get_old ha) ?_
    dsimp only
    refine Sim.last (Sim.updI_at hr e3 fun l4 o4 e4 => Sim.pure ⟨((r1.1.trans u.only).trans o3).trans o4, ?_⟩)
    rw [e4, en]
    rfl
  exact Sim.step s2 fun _ l2 r2 => b l2 r2.1 r2.2

/-- the melting height(s) as objects -/
def MeltIs (n : Nat) (g : Heap α) : MeltRef α → Melt α → Prop
  | .one m, .one m' => m = m'
  | .sectors r, .sectors ms => NewF n g r ms
  | _, _ => False

theorem getMlRhiH_sim {h : Heap α} (env : Env) {fh height : Ref} {f : List Int} {dt : DType} {hs : List α} (ef : h[fh]? = some (.int f))
    (eh : h[height]? = some (.flt dt hs)) (hl : f.length = hs.length) (expected : Option α) :
    Sim h (getMlRhiH env fh height expected) h (getMlRhi env f hs expected)
      (fun g w v => NewI h.length g w.1 (v.1.map Int.ofNat) ∧ w.2 = v.2) := by
  unfold getMlRhiH getMlRhi
  refine Sim.getI ef (Sim.getF eh ?_)
  dsimp only
  refine Sim.lift0 fun ml _ => ?_
  cases ml with
  | none =>
    refine Sim.nil (Sim.new_at fun r l1 hr nr u e1 => ?_)
    exact Sim.of_eq (q := Heap.raise .typeError) rfl Sim.raise
  | some m =>
    refine Sim.nil (Sim.new_at fun r l1 hr nr u e1 => ?_)
    refine Sim.of_eq (q := do
      Heap.updI r (maskSet (hs.map (fun h => h <. m)) 0)
      Heap.updI r (maskSet (hs.map (fun h => h >. m)) 2)
      Pure.pure (r, m)) (g := h ++ l1) rfl ?_
    refine Sim.updI_at hr e1 fun l2 o2 e2 => ?_
    refine Sim.updI_at hr e2 fun l3 o3 e3 => ?_
    refine Sim.pure (v := (_, m)) ⟨⟨hr, ?_⟩, rfl⟩
    rw [e3]
    dsimp only
    rw [maskSet_toInt, maskSet_toInt, List.map_map, map_const (1 : Int) f hs hl]
    rfl

theorem meltRhiH_sim {h : Heap α} (env : Env) {fh height : Ref} {f : List Int} {dt : DType} {hs : List α} (ef : h[fh]? = some (.int f))
    (eh : h[height]? = some (.flt dt hs)) (hl : f.length = hs.length) (expected : Option α) :
    Sim h (meltRhiH env fh height expected) h (do
        let (lev, m) ← getMlRhi env f hs expected
        .ok (lev, .one m))
      (fun g w v => NewI h.length g w.1 (v.1.map Int.ofNat) ∧ MeltIs h.length g w.2 v.2) := by
  unfold meltRhiH
  refine Sim.bind (getMlRhiH_sim env ef eh hl expected) fun w v l _ r => ?_
  exact Sim.pure ⟨r.1, r.2⟩

theorem sectorsH_sim {h0 l : Heap α} (nsect : Nat) (az : List α) {r : Ref} {dt : DType} {xs : List α} (hr : h0.length ≤ r)
    (e : (h0 ++ l)[r]? = some (.flt dt xs)) (i : Nat) (ms : List α) :
    Sim h0 (sectorsH nsect az r i ms) (h0 ++ l) (.ok ()) (fun g _ _ => Only r (h0 ++ l) g ∧
      g[r]? = some (.flt dt ((ms.zipIdx i).foldl (fun acc p => maskSet (inSector nsect p.2 az) p.1 acc) xs))) := by
  induction ms generalizing i l xs with
  | nil => exact Sim.pure ⟨fun _ _ _ h => h, e⟩
  | cons m ms ih =>
    unfold sectorsH
    refine Sim.updF_at hr e fun l1 o1 e1 => ?_
    refine (ih e1 (i + 1)).weaken fun g _ _ q => ⟨o1.trans q.1, ?_⟩
    rw [q.2, List.zipIdx_cons]
    rfl

theorem getMlPpiAzH_sim {h : Heap α} (nsect cols : Nat) {azr fh dz height : Ref} {azs : List α} {f : List Int} {dt dt' dt'' : DType} {d hs : List α}
    (ea : h[azr]? = some (.flt dt'' azs)) (ef : h[fh]? = some (.int f))
    (ed : h[dz]? = some (.flt dt' d)) (eh : h[height]? = some (.flt dt hs)) (hl : f.length = hs.length)
    (ha : azs.length * cols = hs.length) (expected : Option α) :
    Sim h (getMlPpiAzH nsect azr cols fh dz height expected) h (do
        let (lev, ms) ← getMlPpiAz nsect azs cols f d hs expected
        .ok (lev, .sectors ms))
      (fun g w v => NewI h.length g w.1 (v.1.map Int.ofNat) ∧ MeltIs h.length g w.2 v.2) := by
  unfold getMlPpiAzH getMlPpiAz
  refine Sim.getF ea ?_
  dsimp only
  by_cases hz : nsect = 0
  · rw [if_pos hz, if_pos hz]
    exact Sim.raise0
  · rw [if_neg hz, if_neg hz]
    refine Sim.getI ef (Sim.getF ed (Sim.getF eh ?_))
    dsimp only
    rw [show ∀ (x : Except PyErr (List α)) (k : List α → Except PyErr (List Nat × List α)),
      ((x >>= k) >>= fun p => Except.ok (p.1, Melt.sectors p.2)) = x >>= fun v => k v >>= fun p => .ok (p.1, .sectors p.2) by
        intro x k; cases x <;> rfl]
    refine Sim.lift0 fun meds _ => ?_
    refine Sim.nil (Sim.new_at fun mz l1 hmz nmz u1 e1 => ?_)
    refine Sim.new_at fun ma l2 hma nma u2 e2 => ?_
    refine Sim.new_at fun lev l3 hlev nlev u3 e3 => ?_
    refine Sim.step (sectorsH_sim nsect _ hma (u3 _ _ e2) 0 meds) fun _ l4 r4 => ?_
    refine Sim.getF r4.2 ?_
    dsimp only
    have ne1 : lev ≠ ma := fun h => ne_of_new e2 nlev h.symm
    have ne2 : mz ≠ ma := ne_of_new e1 nma
    have ne3 : mz ≠ lev := ne_of_new (u2 _ _ e1) nlev
    refine Sim.updI_at hlev (r4.1 _ _ ne1 e3) fun l5 o5 e5 => ?_
    refine Sim.updI_at hlev e5 fun l6 o6 e6 => ?_
    have alen : f.length = (azs.flatMap (fun a => List.replicate cols a)).length := by
      rw [List.length_flatMap]
      simp [hl, ← ha]
    refine Sim.pure (v := (_, Melt.sectors meds)) ⟨⟨hlev, ?_⟩, hmz, ?_⟩
    · rw [e6]
      dsimp only
      rw [maskSet_toInt, maskSet_toInt, List.map_map, map_const (1 : Int) f hs hl, map_const (0 : α) f _ alen]
      rfl
    · exact o6 _ _ ne3 (o5 _ _ ne3 (r4.1 _ _ ne2 (u3 _ _ (u2 _ _ e1))))

end Csu.Heap
