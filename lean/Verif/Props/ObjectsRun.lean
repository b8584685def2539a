import Verif.Lemmas.HeapRun
import Verif.Lemmas.Misc
import Verif.Model.Objects
import Verif.Spec.Objects
/-!
# C109: results are determined by the contents of the arguments

The programs on array objects return what the value models compute from the contents of their arguments, whichever of the arguments are the
same object and whatever else is on the heap.  All theorems about the value models thus hold for calls with shared arrays.
-/
namespace Csu.Heap
open Csu PyFloat Common
variable {α : Type} [PyFloat α]

/-! ## csu_misc.py -/

/-- the loop over the thresholds: one new array per threshold, or the exception -/
theorem insectCondsH_run (dz zdr : Ref) (dt dt' : DType) (d z : List α) (rg : List (α × α)) (i : Nat) (th : List α) (h : Heap α)
    (hd : h[dz]? = some (.flt dt d)) (hz : h[zdr]? = some (.flt dt' z)) :
    match Misc.insectConds d z rg i th with
    | .ok cs => Runs (insectCondsH dz zdr rg i th) h (List.range' h.length cs.length) (h ++ cs.map .bool)
    | .error e => (insectCondsH dz zdr rg i th h).1 = .error e := by
  induction th generalizing i h with
  | nil => simp [Misc.insectConds, insectCondsH, Runs, pure]
  | cons t ts ih =>
    have key : insectCondsH dz zdr rg i (t :: ts) h =
        (match Misc.insectCond d z rg i t with
        | .error e => (.error e, h)
        | .ok c => HM.bind (insectCondsH dz zdr rg (i + 1) ts) (fun rs => pure (h.length :: rs)) (h ++ [.bool c])) := by
      show HM.bind (getF dz) _ h = _
      unfold HM.bind
      rw [show getF dz h = _ from runs_getF hd]
      show HM.bind (getF zdr) _ h = _
      unfold HM.bind
      rw [show getF zdr h = _ from runs_getF hz]
      show HM.bind (lift _) _ h = _
      unfold HM.bind lift
      rcases Misc.insectCond d z rg i t with x | c
      · rfl
      · rfl
    unfold Misc.insectConds
    rcases e1 : Misc.insectCond d z rg i t with x | c
    · rw [e1] at key
      show (insectCondsH dz zdr rg i (t :: ts) h).1 = .error x
      rw [key]
    · rw [e1] at key
      have := ih (i + 1) (h ++ [.bool c]) (get_old hd) (get_old hz)
      rcases e2 : Misc.insectConds d z rg (i + 1) ts with x | cs
      · rw [e2] at this
        show (insectCondsH dz zdr rg i (t :: ts) h).1 = .error x
        rw [key]
        unfold HM.bind
        dsimp only at this ⊢
        rcases e3 : insectCondsH dz zdr rg (i + 1) ts (h ++ [.bool c]) with ⟨r, g⟩
        rw [e3] at this
        dsimp only at this
        subst this
        rw [e3]
      · rw [e2] at this
        show Runs (insectCondsH dz zdr rg i (t :: ts)) h _ _
        unfold Runs
        rw [key]
        dsimp only at this ⊢
        unfold HM.bind
        rw [show insectCondsH dz zdr rg (i + 1) ts _ = _ from this]
        simp [pure, List.range'_succ]

/-- `store_cond`: the disjunction of all the conditions -/
theorem orAllH_run (cs : List (List Bool)) (rs : List Ref) (s : Ref) (m : List Bool) (h : Heap α) (hs : h[s]? = some (.bool m))
    (hr : List.Forall₂ (fun r c => h[r]? = some (.bool c)) rs cs) :
    ∃ r h', Runs (orAllH s rs) h r h' ∧ h'[r]? = some (.bool (cs.foldl logicalOr m)) := by
  induction cs generalizing rs s m h with
  | nil =>
    cases hr
    exact ⟨s, h, rfl, hs⟩
  | cons c cs ih =>
    cases hr with
    | cons e es =>
      rename_i r rs
      have hs' : (h ++ [.bool (logicalOr m c)])[h.length]? = some (Cell.bool (logicalOr m c) : Cell α) :=
        get_new (k := 0) (l := [.bool (logicalOr m c)]) rfl
      obtain ⟨r', h', a, b⟩ := ih rs h.length (logicalOr m c) (h ++ [.bool (logicalOr m c)]) hs' (es.imp fun _ _ q => get_old q)
      refine ⟨r', h', ?_, b⟩
      unfold orAllH
      exact Runs.bind (runs_getB hs) (Runs.bind (runs_getB e) (Runs.bind rfl a))

theorem news_forall (h : Heap α) (cs : List (List Bool)) :
    List.Forall₂ (fun r c => (h ++ cs.map Cell.bool)[r]? = some (Cell.bool c : Cell α)) (List.range' h.length cs.length) cs := by
  induction cs generalizing h with
  | nil => exact .nil
  | cons c cs ih =>
    rw [List.length_cons, List.range'_succ]
    refine .cons (get_new (k := 0) rfl) ?_
    have := ih (h ++ [.bool c])
    simpa using this

/-- **C109**, `insect_filter` -/
theorem C109_insect_filter (dz zdr : Ref) (mask : Option Ref) (dzRange : List (α × α)) (th : List α) (bad : α) (h : Heap α)
    (dt dt' : DType) (d z : List α) (m : Option (List Bool)) (hd : h[dz]? = some (.flt dt d)) (hz : h[zdr]? = some (.flt dt' z))
    (hm : match mask, m with
      | none, none => True
      | some r, some b => h[r]? = some (.bool b)
      | _, _ => False) :
    match Misc.insectFilter d z m dzRange th bad with
    | .ok b => ∃ r h', insectFilterH dz zdr mask dzRange th bad h = (.ok r, h') ∧ h'[r]? = some (.bool b)
    | .error e => (insectFilterH dz zdr mask dzRange th bad h).1 = .error e := by
  obtain ⟨l, s, hl, hs⟩ : ∃ l s, Runs (insectMaskH dz zdr mask bad) h s (h ++ l) ∧
      (h ++ l)[s]? = some (.bool (Misc.genericMask d z m bad)) := by
    cases mask with
    | some r =>
      cases m with
      | some b => exact ⟨[], r, by simp [insectMaskH, Runs, pure], get_old hm⟩
      | none => exact hm.elim
    | none =>
      cases m with
      | some b => exact hm.elim
      | none =>
        refine ⟨[.bool (logicalOr (d.map (· ==. bad)) (z.map (· ==. bad)))], h.length, ?_, get_new (k := 0) rfl⟩
        exact Runs.bind (runs_getF hd) (Runs.bind (runs_getF hz) rfl)
  have key : insectFilterH dz zdr mask dzRange th bad h =
      HM.bind (insectCondsH dz zdr dzRange 0 th) (orAllH s) (h ++ l) := by
    show HM.bind (insectMaskH dz zdr mask bad) _ h = _
    conv_lhs => unfold HM.bind
    rw [show insectMaskH dz zdr mask bad h = _ from hl]
    rfl
  have loop := insectCondsH_run dz zdr dt dt' d z dzRange 0 th (h ++ l) (get_old hd) (get_old hz)
  unfold Misc.insectFilter
  rcases e : Misc.insectConds d z dzRange 0 th with x | cs
  · rw [e] at loop
    show (insectFilterH dz zdr mask dzRange th bad h).1 = .error x
    rw [key]
    unfold HM.bind
    rcases e3 : insectCondsH dz zdr dzRange 0 th (h ++ l) with ⟨r, g⟩
    rw [e3] at loop
    dsimp only at loop
    subst loop
    rfl
  · rw [e] at loop
    obtain ⟨r, h', a, b⟩ := orAllH_run cs _ s _ _ (get_old (l := cs.map .bool) hs) (news_forall (h ++ l) cs)
    refine ⟨r, h', ?_, b⟩
    rw [key]
    exact Runs.bind loop a

/-- **C109**, `second_trip_filter_magnetron` -/
theorem C109_second_trip (vr : Ref) (bad : α) (h : Heap α) (dt : DType) (v : List α) (hv : h[vr]? = some (.flt dt v)) :
    ∃ r h', secondTripFilterH vr bad h = (.ok r, h') ∧ h'[r]? = some (.bool (Misc.secondTripFilter v bad)) :=
  have run : Runs (secondTripFilterH vr bad) h h.length (h ++ [.bool (Misc.secondTripFilter v bad)]) := Runs.bind (runs_getF hv) rfl
  ⟨_, _, run, get_new (k := 0) rfl⟩

/-- **C109**, `differential_phase_filter` -/
theorem C109_diff_phase (sdp thresh : Ref) (h : Heap α) (dt dt' : DType) (s t : List α) (hs : h[sdp]? = some (.flt dt s))
    (ht : h[thresh]? = some (.flt dt' t)) :
    ∃ r h', diffPhaseFilterArrH sdp thresh h = (.ok r, h') ∧ h'[r]? = some (.bool (Misc.diffPhaseFilterArr s t)) :=
  have run : Runs (diffPhaseFilterArrH sdp thresh) h h.length (h ++ [.bool (Misc.diffPhaseFilterArr s t)]) :=
    Runs.bind (runs_getF hs) (Runs.bind (runs_getF ht) rfl)
  ⟨_, _, run, get_new (k := 0) rfl⟩

/-! ### despeckle -/

theorem maskSet_ofNat (lab : List Nat) (f : Nat) :
    maskSet ((lab.map Int.ofNat).map (· == (f : Int))) 0 (lab.map Int.ofNat) = (maskSet (lab.map (· == f)) 0 lab).map Int.ofNat := by
  induction lab with
  | nil => rfl
  | cons x xs ih =>
    simp only [maskSet, List.map_cons, List.zipWith_cons_cons] at ih ⊢
    rw [ih]
    congr 1
    by_cases e : x = f
    · subst e; simp
    · have : ¬ (Int.ofNat x = (f : Int)) := by simpa using e
      simp [e]

theorem zeroSmallH_run (labels : List Nat) (ng : Int) (fs lab : List Nat) (h l : Heap α) (k : Nat)
    (hl : l[k]? = some (.int (lab.map Int.ofNat))) :
    Runs (zeroSmallH labels ng (h.length + k) fs) (h ++ l) ()
      (h ++ l.set k (.int ((fs.foldl (Misc.zeroSmall labels ng) lab).map Int.ofNat))) := by
  induction fs generalizing lab l with
  | nil =>
    have : l.set k (.int (lab.map Int.ofNat)) = l := by
      obtain ⟨hk, e⟩ := List.getElem?_eq_some_iff.mp hl
      rw [← e, List.set_getElem_self]
    simp [zeroSmallH, Runs, pure, this]
  | cons f fs ih =>
    unfold zeroSmallH
    simp only [List.foldl_cons]
    unfold Misc.zeroSmall
    dsimp only
    split
    · have hk : k < l.length := (List.getElem?_eq_some_iff.mp hl).1
      have step : Runs (updI (h.length + k) (fun l => maskSet (l.map (· == (f : Int))) 0 l) : HM α Unit) (h ++ l) ()
          (h ++ l.set k (.int ((maskSet (lab.map (· == f)) 0 lab).map Int.ofNat))) := by
        unfold Runs updI
        rw [get_new hl, ← set_new, ← maskSet_ofNat]
      refine Runs.bind step ?_
      have := ih (maskSet (lab.map (· == f)) 0 lab) (l.set k (.int ((maskSet (lab.map (· == f)) 0 lab).map Int.ofNat)))
        (by rw [List.getElem?_set_self hk])
      rwa [List.set_set] at this
    · exact ih _ _ hl

theorem despeckleRayH_run (ray : List Bool) (ng : Int) (h : Heap α) :
    ∃ l, Runs (despeckleRayH ray ng) h (h.length + 1) (h ++ [l, .bool (Misc.despeckleRay ray ng)]) := by
  have fin : ∀ lab : List Nat, Post (do
      let l ← getI (h.length + 0)
      newB (l.map (· == 0))) (h ++ [.int (lab.map Int.ofNat)])
      (fun r g => r = .ok (h.length + 1) ∧ g = h ++ [.int (lab.map Int.ofNat), .bool (lab.map (· == 0))]) := fun lab => by
    run
    refine post_newB' ?_
    intro ys e
    refine ⟨rfl, ?_⟩
    have : ys = lab.map (· == 0) := by
      rw [e, List.map_map]
      refine List.map_congr_left fun x _ => ?_
      cases x <;> rfl
    rw [this]
    rfl
  have main : ∃ lab : List Nat, Post (despeckleRayH ray ng) h (fun r g => r = .ok (h.length + 1) ∧
      g = h ++ [.int (lab.map Int.ofNat), .bool (lab.map (· == 0))]) ∧ lab.map (· == 0) = Misc.despeckleRay ray ng := by
    unfold despeckleRayH Misc.despeckleRay
    dsimp only
    split
    · refine ⟨_, ?_, rfl⟩
      refine start (post_newI ?_)
      rintro _ rfl
      dsimp only [List.length_nil, List.nil_append]
      refine Post.bind (zeroSmallH_run _ ng _ (Misc.label ray) h [.int ((Misc.label ray).map Int.ofNat)] 0 rfl) ?_
      exact fin _
    · refine ⟨_, ?_, rfl⟩
      refine start (post_newI ?_)
      rintro _ rfl
      exact fin _
  obtain ⟨lab, p, e⟩ := main
  rw [e] at p
  exact ⟨_, p.elim⟩

theorem zipWith_mask_good (h00 : ((0 : α) ==. 0) = true) (h10 : ((1 : α) ==. 0) = false) (d : List α) (bad : α) :
    (maskSet (invert (d.map (· ==. bad))) 1 (maskSet (d.map (· ==. bad)) 0 d)).map (fun x => !(x ==. 0)) = Misc.goodGates d bad := by
  induction d with
  | nil => rfl
  | cons x xs ih =>
    simp only [maskSet, invert, Misc.goodGates, List.map_cons, List.zipWith_cons_cons] at ih ⊢
    rw [ih]
    congr 1
    cases x ==. bad <;> simp [h00, h10]

/-- rows `0, .., j-1` are done, the others are as they were -/
def partRows (w : Nat) (f : List Bool → List Bool) (a m : List Bool) (j : Nat) : List Bool :=
  ((Misc.rows w j a).map f).flatten ++ m.drop (j * w)

theorem rows_succ' {β : Type} (w n : Nat) (l : List β) : Misc.rows w (n + 1) l = Misc.rows w n l ++ [rowOf w n l] := by
  induction n generalizing l with
  | zero => simp [Misc.rows, rowOf]
  | succ n ih =>
    rw [Misc.rows, ih, Misc.rows]
    simp only [List.cons_append, rowOf, List.drop_drop]
    congr 5
    ring

theorem rows_map {β γ : Type} (w n : Nat) (g : β → γ) (l : List β) : Misc.rows w n (l.map g) = (Misc.rows w n l).map (List.map g) := by
  induction n generalizing l with
  | zero => rfl
  | succ n ih => simp [Misc.rows, ← ih, List.map_take, List.map_drop]

theorem partRows_length (w : Nat) (f : List Bool → List Bool) (hf : ∀ x, (f x).length = x.length) (a : List Bool) (j : Nat)
    (hj : j * w ≤ a.length) : ((Misc.rows w j a).map f).flatten.length = j * w := by
  induction j with
  | zero => simp [Misc.rows]
  | succ j ih =>
    rw [rows_succ']
    have hj' : j * w + w ≤ a.length := by rwa [Nat.succ_mul] at hj
    rw [List.map_append, List.flatten_append, List.length_append, ih (by omega)]
    simp only [List.map_cons, List.map_nil, List.flatten_cons, List.flatten_nil, List.append_nil, hf, rowOf, List.length_take,
      List.length_drop]
    rw [Nat.succ_mul]
    omega

theorem setRow_partRows (w : Nat) (f : List Bool → List Bool) (hf : ∀ x, (f x).length = x.length) (a m : List Bool) (j : Nat)
    (hj : (j + 1) * w ≤ a.length) : setRow w j (f (rowOf w j a)) (partRows w f a m j) = partRows w f a m (j + 1) := by
  have hj' : j * w + w ≤ a.length := by rwa [Nat.succ_mul] at hj
  have hl := partRows_length w f hf a j (by omega)
  unfold setRow partRows
  rw [rows_succ', List.take_left' hl, List.drop_append, List.drop_of_length_le (by omega), hl]
  simp only [List.map_append, List.map_cons, List.map_nil, List.flatten_append, List.flatten_cons, List.flatten_nil, List.append_nil,
    List.nil_append, List.drop_drop, List.append_assoc]
  congr 3
  rw [Nat.succ_mul]
  omega

theorem despeckleRowsH_run (w : Nat) (ng : Int) (dt : DType) (a : List α) (m : List Bool) (h : Heap α) (ka km : Nat) (n : Nat) :
    ∀ (j : Nat) (l : Heap α), (j + n) * w ≤ a.length → l[ka]? = some (.flt dt a) →
      l[km]? = some (.bool (partRows w (Misc.despeckleRay · ng) (a.map (fun x => !(x ==. 0))) m j)) →
      ∃ l', Runs (despeckleRowsH (h.length + ka) (h.length + km) w ng (List.range' j n)) (h ++ l) () (h ++ l') ∧
        l'[km]? = some (.bool (partRows w (Misc.despeckleRay · ng) (a.map (fun x => !(x ==. 0))) m (j + n))) := by
  induction n with
  | zero =>
    intro j l _ _ hm
    exact ⟨l, rfl, hm⟩
  | succ n ih =>
    intro j l hj ha hm
    obtain ⟨c, hr⟩ := despeckleRayH_run (rowOf w j (a.map (fun x => !(x ==. 0)))) ng (h ++ l)
    generalize hb : Misc.despeckleRay (rowOf w j (a.map (fun x => !(x ==. 0)))) ng = b at hr
    have hkm : km < l.length := (List.getElem?_eq_some_iff.mp hm).1
    have hka : ka < l.length := (List.getElem?_eq_some_iff.mp ha).1
    have hne : km ≠ ka := fun e => by rw [e, ha] at hm; cases hm
    have hm2 : (l ++ [c, .bool b])[km]? = some (.bool _) := get_old hm
    have ha2 : (l ++ [c, .bool b])[ka]? = some (.flt dt a) := get_old ha
    have step : Runs (updB (h.length + km) (setRow w j b) : HM α Unit) (h ++ (l ++ [c, .bool b])) ()
        (h ++ (l ++ [c, .bool b]).set km (.bool (partRows w (Misc.despeckleRay · ng) (a.map (fun x => !(x ==. 0))) m (j + 1)))) := by
      unfold Runs updB
      rw [get_new hm2, ← set_new, ← hb]
      dsimp only
      rw [← setRow_partRows w (Misc.despeckleRay · ng) (fun x => Misc.despeckleRay_length x ng) _ m j (by
        rw [List.length_map]
        refine Nat.le_trans (Nat.mul_le_mul_right w ?_) hj
        omega)]
    obtain ⟨l', run, hl'⟩ := ih (j + 1) ((l ++ [c, .bool b]).set km
      (.bool (partRows w (Misc.despeckleRay · ng) (a.map (fun x => !(x ==. 0))) m (j + 1)))) (by rwa [show j + 1 + n = j + (n + 1) by omega])
      (by rw [List.getElem?_set_ne hne]; exact ha2)
      (by rw [List.getElem?_set_self (by simp; omega)])
    refine ⟨l', ?_, by rwa [show j + 1 + n = j + (n + 1) by omega] at hl'⟩
    rw [List.range'_succ]
    unfold despeckleRowsH
    refine Runs.bind (runs_getF (get_new ha)) (Runs.bind hr ?_)
    rw [List.append_assoc]
    have e : (h ++ l).length + 1 = h.length + (l.length + 1) := by simp; omega
    rw [e]
    exact Runs.bind (runs_getB (get_new (by simp))) (Runs.bind step run)

/-- **C109**, `despeckle` on arrays of any shape -/
theorem C109_despeckle (h00 : ((0 : α) ==. 0) = true) (h10 : ((1 : α) ==. 0) = false) (data : Ref) (shape : List Nat) (bad : α) (ng : Int)
    (h : Heap α) (dt : DType) (d : List α) (hd : h[data]? = some (.flt dt d)) (hs : d.length = shape.prod) :
    match Misc.despeckle (.arr ⟨dt, shape, d⟩) bad ng with
    | .ok (some b) => ∃ r h', despeckleH data shape bad ng h = (.ok (some r), h') ∧ h'[r]? = some (.bool b.data)
    | .ok none => ∃ h', despeckleH data shape bad ng h = (.ok none, h')
    | .error e => ∃ h', despeckleH data shape bad ng h = (.error e, h') := by
  by_cases hsh : shape = []
  · subst hsh
    exact ⟨h, rfl⟩
  have key : Post (despeckleH data shape bad ng) h (fun r g => match Misc.despeckle (.arr ⟨dt, shape, d⟩) bad ng with
    | .ok (some b) => ∃ x, r = .ok (some x) ∧ g[x]? = some (.bool b.data)
    | .ok none => r = .ok none
    | .error e => r = .error e) := by
    refine start ?_
    unfold despeckleH
    rw [if_neg hsh]
    unfold despeckleNH
    run
    rename_i a1 e1 m e2 a2 e3 a3 e4
    subst e1 e2 e3
    have good : a3.map (fun x => !(x ==. 0)) = Misc.goodGates a1 bad := by rw [e4, zipWith_mask_good h00 h10]
    have len : a3.length = a1.length := by simp [e4, maskSet, invert]
    split
    · rename_i n w
      have hw : a1.length = n * w := by simpa using hs
      obtain ⟨l', run, hl⟩ := despeckleRowsH_run w ng .float a3 (a1.map (· ==. bad)) h 0 1 n 0 [.flt .float a3, .bool (a1.map (· ==. bad))]
        (by rw [Nat.zero_add]; omega) rfl (by simp [partRows, Misc.rows])
      rw [List.range_eq_range']
      refine Post.bind run (Post.pure ?_)
      refine ⟨h.length + 1, rfl, ?_⟩
      rw [get_new hl, good]
      congr 2
      show partRows w _ _ _ (0 + n) = (Misc.despeckle2 (Misc.rows w n a1) bad ng).flatten
      rw [Nat.zero_add, partRows, List.drop_of_length_le (by simp [hw]), List.append_nil, Misc.goodGates, rows_map, Misc.despeckle2,
        List.map_map]
      rfl
    · run
      obtain ⟨c, run⟩ := despeckleRayH_run (a3.map (fun x => !(x ==. 0))) ng (h ++ [.flt .float a3, .bool (a1.map (· ==. bad))])
      refine Post.bind run (Post.pure ⟨_, rfl, ?_⟩)
      rw [get_new (k := 1) rfl, good]
      rfl
    · rename_i hn1 hn2
      refine Post.pure ?_
      rw [show Misc.despeckle (.arr ⟨dt, shape, a1⟩) bad ng = .ok none from ?_]
      unfold Misc.despeckle
      dsimp only
      split
      · exact absurd rfl hsh
      · exact absurd rfl (hn2 _)
      · exact absurd rfl (hn1 _ _)
      · rfl
  obtain ⟨r, h', run, q⟩ := key.dest
  rcases e : Misc.despeckle (.arr ⟨dt, shape, d⟩) bad ng with er | _ | b
  · rw [e] at q
    subst q
    exact ⟨h', run⟩
  · rw [e] at q
    subst q
    exact ⟨h', run⟩
  · rw [e] at q
    obtain ⟨x, rfl, hx⟩ := q
    exact ⟨x, h', run, hx⟩

end Csu.Heap
