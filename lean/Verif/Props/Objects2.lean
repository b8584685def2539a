import Verif.Lemmas.HeapFhc
import Verif.QFloat
/-!
# C138: the classifiers on array objects

The caller's arrays are not changed, whatever happens; the results are new arrays; their contents are what the value models
(`csuFhcSummerV`, `csuFhcWinterV`, `csuFhcMlV`) compute from the contents of the arguments, also if one array is passed for several arguments.
-/
namespace Csu.Heap
open Csu PyFloat Tables Fhc
variable {α : Type} [PyFloat α]

theorem Sim.caller {β γ : Type} {p : HM α β} {h : Heap α} {x : Except PyErr γ} {R : Heap α → β → γ → Prop} (a : Sim h p h x R) :
    Unchanged h (p h).2 ∧ (∀ e, x = .error e → (p h).1 = .error e) ∧
      ∀ v, x = .ok v → ∃ w, (p h).1 = .ok w ∧ R (p h).2 w v := by
  obtain ⟨l, e, a⟩ := a
  refine ⟨?_, ?_, ?_⟩
  · intro r c hc
    rw [e]; exact get_old hc
  · rintro y rfl; exact a
  · rintro v rfl; exact a

/-- the rows of a score array are new objects with these contents -/
def RowsAre (h g : Heap α) (mu : List Ref) (rows : List (List α)) : Prop :=
  List.Forall₂ (fun r row => IsNew h r ∧ g[r]? = some (.flt .float row)) mu rows

theorem NewRows.are {h g : Heap α} {mu : List Ref} {rows : List (List α)} (e : NewRows h.length g mu rows) : RowsAre h g mu rows :=
  forall₂_weaken (fun _ _ r => ⟨List.getElem?_eq_none r.1, r.2⟩) e

/-- what `csu_fhc_summer` returns, as objects -/
def OutIs (h g : Heap α) : Option OutRef → Option (Out α) → Prop
  | none, none => True
  | some (.scores s mu), some (.scores s' rows) => s = s' ∧ RowsAre h g mu rows
  | some (.hid s r), some (.hid s' data) => s = s' ∧ IsNew h r ∧ g[r]? = some (.int (data.map Int.ofNat))
  | _, _ => False

/-- a winter or melting-layer score array, as objects -/
def ScoresAre (h g : Heap α) : Option (List Nat × List Ref) → Option (List Nat × List (List α)) → Prop
  | none, none => True
  | some (s, mu), some (s', rows) => s = s' ∧ RowsAre h g mu rows
  | _, _ => False

theorem verboseH_sim {h : Heap α} (v : Bool) (rows : List (List α)) (sz : Nat) :
    Sim h (verboseH v rows.length sz) h (if v then verboseMax rows sz else .ok ()) (fun _ _ _ => True) := by
  unfold verboseH verboseMax
  cases v
  · exact Sim.pure0 trivial
  · by_cases hc : rows.length * sz = 0
    · rw [if_pos (by simp [hc]), if_pos rfl, if_pos hc]
      exact Sim.raise0
    · rw [if_neg (by simpa using hc), if_pos rfl, if_neg hc]
      exact Sim.pure0 trivial

theorem useTempH_eq {h : Heap α} {R : InRefs} {I : Inputs α} (e : HoldsIn h R I) (u : Bool) :
    useTempH R u = if I.T.isNone then false else u := by
  unfold useTempH
  have := (e .T).isSome
  rw [show R.T.isNone = I.T.isNone by
    have h1 : R.T.isSome = I.T.isSome := this
    cases hr : R.T <;> cases hi : I.T <;> rw [hr, hi] at h1 <;> simp_all]

theorem HoldsIn.mono {h l : Heap α} {R : InRefs} {I : Inputs α} (e : HoldsIn h R I) : HoldsIn (h ++ l) R I := fun k => (e k).mono

/-- the heap of the caller: `R` is about objects new with respect to it -/
theorem NewMu.le {n n' : Nat} (hn : n ≤ n') {h : Heap α} {rs : Option (List Ref)} {rows : Option (List (List α))} (e : NewMu n' h rs rows) :
    NewMu n h rs rows := by
  cases rs <;> cases rows <;> first | exact e | exact NewRows.le hn e

theorem summer_sim {h : Heap α} {R : InRefs} {I : Inputs α} (e : HoldsIn h R I) (verbose plotFlag : Bool) (A : SummerArgs α) :
    Sim h (csuFhcSummerH verbose plotFlag A R) h (csuFhcSummerV verbose plotFlag A I) (OutIs h) := by
  unfold csuFhcSummerH csuFhcSummerV
  have ez := e .DZ
  change HoldsArr h R.dz I.dz at ez
  cases hR : R.dz with
  | none =>
    rw [hR] at ez
    cases hI : I.dz with
    | none => exact Sim.pure0 trivial
    | some _ => rw [hI] at ez; exact ez.elim
  | some dz =>
    rw [hR] at ez
    cases hI : I.dz with
    | none => rw [hI] at ez; exact ez.elim
    | some a =>
      rw [hI] at ez
      dsimp only
      refine Sim.step (populateH_sim e) fun D l rD => ?_
      refine Sim.getF (get_old ez.1) ?_
      dsimp only
      rw [useTempH_eq e]
      refine Sim.lift fun s _ => ?_
      obtain ⟨sets, figs⟩ := s
      dsimp only
      have := (muH_sim (h := h ++ l) e.mono rD a (if I.T.isNone then false else A.useTemp) (fun k _ => A.weights k) sets A.useTrap
        (List.range (((sets .DZ).getD []).length)) (methodOf A.method)).base
      cases hm : methodOf A.method with
      | none =>
        rw [hm] at this
        dsimp only at this ⊢
        refine Sim.step this fun w l' r => ?_
        cases w with
        | none => exact Sim.pure trivial
        | some _ => exact r.1.elim
      | some hybrid =>
        rw [hm] at this
        dsimp only at this ⊢
        have assoc : ∀ (x : Except PyErr (List (List α))) (k : List (List α) → Except PyErr (Option (Out α))),
            (x >>= k) = ((x >>= fun rows => .ok (some rows)) >>= fun o => match o with
              | none => .ok none
              | some rows => k rows) := by
          intro x k; cases x <;> rfl
        rw [assoc]
        refine Sim.bind this fun w v l' _ r => ?_
        obtain ⟨r, _⟩ := r
        cases v with
        | none =>
          cases w with
          | none => exact Sim.pure trivial
          | some _ => exact r.elim
        | some rows =>
          cases w with
          | none => exact r.elim
          | some mu =>
            have hl : mu.length = rows.length := forall₂_length r
            have r : NewRows (h ++ l).length (h ++ l') mu rows := r
            unfold summerEndH
            dsimp only
            rw [hl]
            have fin : ∀ l3, Sim h (if rows.length * a.data.length ≠ A.nTypes * a.data.length then (Heap.raise .valueError : HM α (Option OutRef))
                else if A.returnScores = true then pure (some (.scores (A.nTypes :: dz.shape) mu))
                else if A.nTypes = 0 then Heap.raise .valueError
                else do
                  let r ← classifyH a.data.length mu
                  pure (some (.hid dz.shape r))) (h ++ l' ++ l3)
                (if rows.length * a.data.length ≠ A.nTypes * a.data.length then .error .valueError
                else if A.returnScores = true then .ok (some (.scores (A.nTypes :: a.shape) rows))
                else if A.nTypes = 0 then .error .valueError
                else .ok (some (.hid a.shape (classify a.data.length rows)))) (OutIs h) := by
              intro l3
              have r2 : NewRows h.length (h ++ l' ++ l3) mu rows := NewRows.mono (by simp) r
              rw [List.append_assoc] at r2 ⊢
              refine Sim.ite (fun _ => Sim.raise) (fun _ => Sim.ite (fun _ => Sim.pure ⟨by rw [ez.2], r2.are⟩)
                (fun _ => Sim.ite (fun _ => Sim.raise) (fun _ => ?_)))
              refine Sim.step (classifyH_sim a.data.length r2).base fun w l4 r4 => ?_
              exact Sim.pure ⟨ez.2, List.getElem?_eq_none (Nat.le_trans (by simp) r4.1.1), r4.1.2⟩
            have vb := (verboseH_sim (h := h ++ l') verbose rows a.data.length).base
            cases verbose with
            | false =>
              refine Sim.step vb fun _ l2 q => ?_
              obtain ⟨l3, q⟩ := q.2
              rw [q]; exact fin l3
            | true =>
              refine Sim.bind vb fun _ _ l2 _ q => ?_
              obtain ⟨l3, q⟩ := q.2
              rw [q]; exact fin l3

theorem getTestList_some_length {C : Cfg α} {types : List Nat} {rows : List (List α)}
    (e : (getTestList C types >>= fun rows => .ok (some rows)) = .ok (some rows)) : rows.length = types.length := by
  have e' : getTestList C types = .ok rows := by
    cases hx : getTestList C types with
    | error _ => rw [hx] at e; cases e
    | ok v => rw [hx] at e; cases e; rfl
  unfold getTestList at e'
  clear e
  induction types generalizing rows with
  | nil => cases e'; rfl
  | cons c cs ih =>
    rw [List.mapM_cons] at e'
    cases h1 : testFor C c with
    | error _ => rw [h1] at e'; cases e'
    | ok v =>
      cases h2 : cs.mapM (testFor C) with
      | error _ => rw [h1, h2] at e'; cases e'
      | ok vs =>
        rw [h1, h2] at e'
        cases e'
        simp [ih h2]

theorem winter_sim {h : Heap α} {R : InRefs} {I : Inputs α} (e : HoldsIn h R I) (verbose plotFlag : Bool) (nTypes : Nat) (A : WinterArgs α) :
    Sim h (csuFhcWinterH verbose plotFlag nTypes A R) h (csuFhcWinterV verbose plotFlag nTypes A I) (ScoresAre h) := by
  unfold csuFhcWinterH csuFhcWinterV
  have ez := e .DZ
  change HoldsArr h R.dz I.dz at ez
  cases hR : R.dz with
  | none =>
    rw [hR] at ez
    cases hI : I.dz with
    | none => exact Sim.pure0 trivial
    | some _ => rw [hI] at ez; exact ez.elim
  | some dz =>
    rw [hR] at ez
    cases hI : I.dz with
    | none => rw [hI] at ez; exact ez.elim
    | some a =>
      rw [hI] at ez
      dsimp only
      refine Sim.step (populateH_sim e) fun D l rD => ?_
      refine Sim.getF (get_old ez.1) ?_
      dsimp only
      rw [useTempH_eq e]
      refine Sim.lift fun s _ => ?_
      obtain ⟨sets, figs⟩ := s
      dsimp only
      have := (muH_sim (h := h ++ l) e.mono rD a (if I.T.isNone then false else A.useTemp) A.weights sets false
        (winterTypes A.warm) (methodOf A.method)).base
      cases hm : methodOf A.method with
      | none =>
        rw [hm] at this
        dsimp only at this ⊢
        refine Sim.step this fun w l' r => ?_
        cases w with
        | none => exact Sim.pure trivial
        | some _ => exact r.1.elim
      | some hybrid =>
        rw [hm] at this
        dsimp only at this ⊢
        have assoc : ∀ (x : Except PyErr (List (List α))) (k : List (List α) → Except PyErr (Option (List Nat × List (List α)))),
            (x >>= k) = ((x >>= fun rows => .ok (some rows)) >>= fun o => match o with
              | none => .ok none
              | some rows => k rows) := by
          intro x k; cases x <;> rfl
        rw [assoc]
        refine Sim.bind this fun w v l' hv r => ?_
        obtain ⟨r, _⟩ := r
        cases v with
        | none =>
          cases w with
          | none => exact Sim.pure trivial
          | some _ => exact r.elim
        | some rows =>
          cases w with
          | none => exact r.elim
          | some mu =>
            have hl : mu.length = rows.length := forall₂_length r
            have hlen : rows.length = (winterTypes A.warm).length := getTestList_some_length hv
            have r : NewRows (h ++ l).length (h ++ l') mu rows := r
            unfold winterEndH
            dsimp only
            rw [hl]
            have fin : ∀ l3, Sim h (pure (some (rows.length :: dz.shape, mu)) : HM α (Option (List Nat × List Ref))) (h ++ l' ++ l3)
                (.ok (some ((winterTypes A.warm).length :: a.shape, rows))) (ScoresAre h) := by
              intro l3
              have r2 : NewRows h.length (h ++ l' ++ l3) mu rows := NewRows.mono (by simp) r
              rw [List.append_assoc] at r2 ⊢
              exact Sim.pure ⟨by rw [ez.2, hlen], r2.are⟩
            have vb := (verboseH_sim (h := h ++ l') verbose rows a.data.length).base
            cases verbose with
            | false =>
              refine Sim.step vb fun _ l2 q => ?_
              obtain ⟨l3, q⟩ := q.2
              rw [q]; exact fin l3
            | true =>
              refine Sim.bind vb fun _ _ l2 _ q => ?_
              obtain ⟨l3, q⟩ := q.2
              rw [q]; exact fin l3

theorem ml_sim {h : Heap α} {R : InRefs} {I : Inputs α} (e : HoldsIn h R I) (verbose plotFlag : Bool) (A : MlArgs α) :
    Sim h (csuFhcMlH verbose plotFlag A R) h (csuFhcMlV verbose plotFlag A I) (ScoresAre h) := by
  unfold csuFhcMlH csuFhcMlV
  have ez := e .DZ
  change HoldsArr h R.dz I.dz at ez
  cases hR : R.dz with
  | none =>
    rw [hR] at ez
    cases hI : I.dz with
    | none => exact Sim.pure0 trivial
    | some _ => rw [hI] at ez; exact ez.elim
  | some dz =>
    rw [hR] at ez
    cases hI : I.dz with
    | none => rw [hI] at ez; exact ez.elim
    | some a =>
      rw [hI] at ez
      dsimp only
      refine Sim.step (populateH_sim e) fun D l rD => ?_
      refine Sim.getF (get_old ez.1) ?_
      dsimp only
      rw [useTempH_eq e]
      refine Sim.lift fun s _ => ?_
      obtain ⟨sets, figs⟩ := s
      dsimp only
      have := (muH_sim (h := h ++ l) e.mono rD a (if I.T.isNone then false else A.useTemp) A.weights sets false
        (List.range (((sets .DZ).getD []).length)) (methodOf A.method)).base
      cases hm : methodOf A.method with
      | none =>
        rw [hm] at this
        dsimp only at this ⊢
        refine Sim.step this fun w l' r => ?_
        cases w with
        | none => exact Sim.pure trivial
        | some _ => exact r.1.elim
      | some hybrid =>
        rw [hm] at this
        dsimp only at this ⊢
        have assoc : ∀ (x : Except PyErr (List (List α))) (k : List (List α) → Except PyErr (Option (List Nat × List (List α)))),
            (x >>= k) = ((x >>= fun rows => .ok (some rows)) >>= fun o => match o with
              | none => .ok none
              | some rows => k rows) := by
          intro x k; cases x <;> rfl
        rw [assoc]
        refine Sim.bind this fun w v l' _ r => ?_
        obtain ⟨r, _⟩ := r
        cases v with
        | none =>
          cases w with
          | none => exact Sim.pure trivial
          | some _ => exact r.elim
        | some rows =>
          cases w with
          | none => exact r.elim
          | some mu =>
            have hl : mu.length = rows.length := forall₂_length r
            have r : NewRows (h ++ l).length (h ++ l') mu rows := r
            unfold mlEndH
            dsimp only
            rw [hl]
            have fin : ∀ l3, Sim h (if rows.length * a.data.length ≠ A.nTypes * a.data.length then (Heap.raise .valueError : HM α (Option (List Nat × List Ref)))
                else pure (some (A.nTypes :: dz.shape, mu))) (h ++ l' ++ l3)
                (if rows.length * a.data.length ≠ A.nTypes * a.data.length then .error .valueError
                else .ok (some (A.nTypes :: a.shape, rows))) (ScoresAre h) := by
              intro l3
              have r2 : NewRows h.length (h ++ l' ++ l3) mu rows := NewRows.mono (by simp) r
              rw [List.append_assoc] at r2 ⊢
              exact Sim.ite (fun _ => Sim.raise) (fun _ => Sim.pure ⟨by rw [ez.2], r2.are⟩)
            have vb := (verboseH_sim (h := h ++ l') verbose rows a.data.length).base
            cases verbose with
            | false =>
              refine Sim.step vb fun _ l2 q => ?_
              obtain ⟨l3, q⟩ := q.2
              rw [q]; exact fin l3
            | true =>
              refine Sim.bind vb fun _ _ l2 _ q => ?_
              obtain ⟨l3, q⟩ := q.2
              rw [q]; exact fin l3

/-- C138: whatever arrays `csu_fhc_summer` is called with (also one array for several arguments) and whether or not it raises, every array that
existed before the call has the contents it had; the call raises what the value model raises on the contents of the arguments; and what it
returns are new arrays with the contents the value model computes. -/
theorem C138_summer (h : Heap α) (R : InRefs) (I : Inputs α) (e : HoldsIn h R I) (verbose plotFlag : Bool) (A : SummerArgs α) :
    Unchanged h (csuFhcSummerH verbose plotFlag A R h).2 ∧
    (∀ err, csuFhcSummerV verbose plotFlag A I = .error err → (csuFhcSummerH verbose plotFlag A R h).1 = .error err) ∧
    ∀ v, csuFhcSummerV verbose plotFlag A I = .ok v →
      ∃ w, (csuFhcSummerH verbose plotFlag A R h).1 = .ok w ∧ OutIs h (csuFhcSummerH verbose plotFlag A R h).2 w v :=
  (summer_sim e verbose plotFlag A).caller

/-- C138: the same for `csu_fhc_winter`. -/
theorem C138_winter (h : Heap α) (R : InRefs) (I : Inputs α) (e : HoldsIn h R I) (verbose plotFlag : Bool) (nTypes : Nat) (A : WinterArgs α) :
    Unchanged h (csuFhcWinterH verbose plotFlag nTypes A R h).2 ∧
    (∀ err, csuFhcWinterV verbose plotFlag nTypes A I = .error err → (csuFhcWinterH verbose plotFlag nTypes A R h).1 = .error err) ∧
    ∀ v, csuFhcWinterV verbose plotFlag nTypes A I = .ok v →
      ∃ w, (csuFhcWinterH verbose plotFlag nTypes A R h).1 = .ok w ∧ ScoresAre h (csuFhcWinterH verbose plotFlag nTypes A R h).2 w v :=
  (winter_sim e verbose plotFlag nTypes A).caller

/-- C138: the same for `csu_fhc_cold_newml1`. -/
theorem C138_ml (h : Heap α) (R : InRefs) (I : Inputs α) (e : HoldsIn h R I) (verbose plotFlag : Bool) (A : MlArgs α) :
    Unchanged h (csuFhcMlH verbose plotFlag A R h).2 ∧
    (∀ err, csuFhcMlV verbose plotFlag A I = .error err → (csuFhcMlH verbose plotFlag A R h).1 = .error err) ∧
    ∀ v, csuFhcMlV verbose plotFlag A I = .ok v →
      ∃ w, (csuFhcMlH verbose plotFlag A R h).1 = .ok w ∧ ScoresAre h (csuFhcMlH verbose plotFlag A R h).2 w v :=
  (ml_sim e verbose plotFlag A).caller

/-- Two arrays; the first is passed for the reflectivity and for the temperature. -/
def shared138 : Heap QF := [.flt .float [QF.q 30, QF.q 45], .flt .float [QF.q 1, QF.q 2]]
/-- the references of that call -/
def refs138 : InRefs := ⟨some ⟨0, [2]⟩, some ⟨1, [2]⟩, none, none, none, some ⟨0, [2]⟩⟩
/-- the arrays of that call -/
def inputs138 : Inputs QF :=
  { dz := some ⟨.float, [2], [QF.q 30, QF.q 45]⟩, zdr := some ⟨.float, [2], [QF.q 1, QF.q 2]⟩, kdp := none, rho := none, ldr := none,
    T := some ⟨.float, [2], [QF.q 30, QF.q 45]⟩ }

theorem holds138 : HoldsIn shared138 refs138 inputs138 := by
  intro k
  cases k <;> first | exact ⟨rfl, rfl⟩ | trivial

-- the hypotheses are met by a call that shares an array and returns categories ...
example : HoldsIn shared138 refs138 inputs138 ∧
    ((csuFhcSummerH false false {} refs138 shared138).1.toOption.map Option.isSome = some true) ∧
    shared138.length < (csuFhcSummerH false false {} refs138 shared138).2.length := by
  exact ⟨holds138, by decide +kernel⟩

-- ... and by a call that raises (a band without tables)
example : (csuFhcSummerH false false { band := "K" } refs138 shared138).1.toOption.isNone = true := by decide +kernel
example : ((csuFhcWinterH false false 7 {} refs138 shared138).1.toOption.map Option.isSome = some true) := by decide +kernel
example : ((csuFhcMlH false false {} refs138 shared138).1.toOption.map Option.isSome = some true) := by decide +kernel

end Csu.Heap
