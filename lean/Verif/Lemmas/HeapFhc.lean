import Verif.Lemmas.HeapSim
import Verif.Spec.Objects
/-!
# The classifiers on array objects compute what the value models compute
-/
namespace Csu.Heap
open Csu PyFloat Tables Fhc
variable {α : Type} [PyFloat α]

/-- an optional array argument and its contents -/
def HoldsArr (h : Heap α) : Option FRef → Option (NdArray α) → Prop
  | none, none => True
  | some f, some a => h[f.ref]? = some (.flt a.dtype a.data) ∧ f.shape = a.shape
  | _, _ => False

/-- the references `R` hold the arrays `I` -/
def HoldsIn (h : Heap α) (R : InRefs) (I : Inputs α) : Prop := ∀ k, HoldsArr h (R.get k) (I.get k)

theorem HoldsArr.isSome {h : Heap α} {f : Option FRef} {a : Option (NdArray α)} (e : HoldsArr h f a) : f.isSome = a.isSome := by
  cases f <;> cases a <;> first | rfl | exact e.elim

theorem HoldsArr.mono {h l : Heap α} {f : Option FRef} {a : Option (NdArray α)} (e : HoldsArr h f a) : HoldsArr (h ++ l) f a := by
  cases f <;> cases a <;> first | exact e | exact ⟨get_old e.1, e.2⟩

/-- a new float array -/
def NewF (n : Nat) (g : Heap α) (r : Ref) (v : List α) : Prop := n ≤ r ∧ g[r]? = some (.flt .float v)

/-- an optional new float array -/
def NewOpt (n : Nat) (g : Heap α) : Option Ref → Option (List α) → Prop
  | none, none => True
  | some r, some v => NewF n g r v
  | _, _ => False

theorem NewF.mono {n : Nat} {h l : Heap α} {r : Ref} {v : List α} (e : NewF n h r v) : NewF n (h ++ l) r v := ⟨e.1, get_old e.2⟩

theorem NewOpt.mono {n : Nat} {h l : Heap α} {r : Option Ref} {v : Option (List α)} (e : NewOpt n h r v) : NewOpt n (h ++ l) r v := by
  cases r <;> cases v <;> first | exact e | exact NewF.mono e

theorem copyH_sim {h : Heap α} {f : Option FRef} {a : Option (NdArray α)} (e : HoldsArr h f a) :
    Sim h (copyH f) h (.ok (a.map (·.data))) (NewOpt h.length) := by
  cases f with
  | none =>
    cases a with
    | none => exact Sim.pure0 trivial
    | some _ => exact e.elim
  | some f =>
    cases a with
    | none => exact e.elim
    | some a =>
      unfold copyH
      refine Sim.getF e.1 ?_
      have : Sim h (Heap.new (.flt .float a.data) >>= fun r => Pure.pure (some r)) (h ++ []) (.ok (some a.data)) (NewOpt h.length) := by
        refine Sim.new ?_
        exact Sim.pure ⟨by simp, get_new (k := 0) rfl⟩
      rw [List.append_nil] at this; exact this

/-- all keys of a dictionary of arrays -/
def NewAll (n : Nat) (g : Heap α) (D : Key → Option Ref) (d : Key → Option (List α)) : Prop := ∀ k, NewOpt n g (D k) (d k)

theorem NewOpt.le {n n' : Nat} (hn : n ≤ n') {g : Heap α} {r : Option Ref} {v : Option (List α)} (e : NewOpt n' g r v) : NewOpt n g r v := by
  cases r <;> cases v <;> first | exact e | exact ⟨Nat.le_trans hn e.1, e.2⟩

theorem populateH_sim {h : Heap α} {R : InRefs} {I : Inputs α} (e : HoldsIn h R I) :
    Sim h (populateH R) h (.ok (radarData I)) (NewAll h.length) := by
  have step : ∀ {β : Type} {g : Heap α} (k : Key) (f : Option Ref → HM α (Key → Option Ref)), (∀ k, HoldsArr g (R.get k) (I.get k)) → h.length ≤ g.length →
      (∀ w l, NewOpt h.length (g ++ l) w (radarData I k) → Sim (g ++ l) (f w) (g ++ l) (.ok (radarData I)) (NewAll h.length)) →
      Sim g (copyH (R.get k) >>= f) g (.ok (radarData I)) (NewAll h.length) := by
    intro _ g k f hg hn b
    exact Sim.seq (k := fun _ => .ok (radarData I)) (copyH_sim (hg k)) (fun w v l ev r => by
      cases ev
      exact b w l (r.le hn))
  have mono : ∀ {g : Heap α} (l : Heap α), (∀ k, HoldsArr g (R.get k) (I.get k)) → ∀ k, HoldsArr (g ++ l) (R.get k) (I.get k) :=
    fun l hg k => (hg k).mono
  unfold populateH
  refine step (β := Unit) .DZ _ e (by simp) fun w1 l1 r1 => ?_
  refine step (β := Unit) .DR _ (mono _ e) (by simp) fun w2 l2 r2 => ?_
  refine step (β := Unit) .KD _ (mono _ (mono _ e)) (by simp) fun w3 l3 r3 => ?_
  refine step (β := Unit) .RH _ (mono _ (mono _ (mono _ e))) (by simp only [List.length_append]; omega) fun w4 l4 r4 => ?_
  refine step (β := Unit) .LD _ (mono _ (mono _ (mono _ (mono _ e)))) (by simp only [List.length_append]; omega) fun w5 l5 r5 => ?_
  refine step (β := Unit) .T _ (mono _ (mono _ (mono _ (mono _ (mono _ e))))) (by simp only [List.length_append]; omega) fun w6 l6 r6 => ?_
  refine Sim.pure0 ?_
  intro k
  cases k
  · exact r1.mono.mono.mono.mono.mono
  · exact r2.mono.mono.mono.mono
  · exact r3.mono.mono.mono
  · exact r4.mono.mono
  · exact r5.mono
  · exact r6

theorem readH_sim {n : Nat} {h0 h : Heap α} {r : Option Ref} {v : Option (List α)} {δ ε : Type} {f : Option (List α) → HM α δ} {x : Except PyErr ε}
    {S : Heap α → δ → ε → Prop} (e : NewOpt n h r v) (b : Sim h0 (f v) h x S) : Sim h0 (readH r >>= f) h x S := by
  refine Sim.of_eq ?_ b
  show HM.bind _ f h = _
  cases r with
  | none =>
    cases v with
    | none => rfl
    | some _ => exact e.elim
  | some r =>
    cases v with
    | none => exact e.elim
    | some v =>
      have : readH (some r) h = (.ok (some v), h) := by
        show HM.bind (Heap.getF r) _ h = _
        simp only [HM.bind, show Heap.getF r h = _ from runs_getF e.2]
        rfl
      simp only [HM.bind, this]

theorem readAllH_sim {n : Nat} {h0 h : Heap α} {D : Key → Option Ref} {d : Key → Option (List α)} {δ ε : Type}
    {f : (Key → Option (List α)) → HM α δ} {x : Except PyErr ε}
    {S : Heap α → δ → ε → Prop} (e : NewAll n h D d) (b : Sim h0 (f d) h x S) : Sim h0 (readAllH D >>= f) h x S := by
  have ex : readAllH D h = (.ok d, h) := by
    have one : ∀ k, readH (D k) h = (.ok (d k), h) := by
      intro k
      have := e k
      cases hr : D k with
      | none =>
        rw [hr] at this
        cases hv : d k with
        | none => rfl
        | some _ => rw [hv] at this; exact this.elim
      | some r =>
        rw [hr] at this
        cases hv : d k with
        | none => rw [hv] at this; exact this.elim
        | some v =>
          rw [hv] at this
          show HM.bind (Heap.getF r) _ h = _
          simp only [HM.bind, show Heap.getF r h = _ from runs_getF this.2]
          rfl
    have hb : ∀ {β : Type} (k : Key) (f : Option (List α) → HM α β), (readH (D k) >>= f) h = f (d k) h := by
      intro β k f
      show HM.bind _ f h = _
      simp only [HM.bind, one k]
    unfold readAllH
    rw [hb .DZ, hb .DR, hb .KD, hb .RH, hb .LD, hb .T]
    show (Except.ok _, h) = _
    congr 2
    funext k
    cases k <;> rfl
  refine Sim.of_eq ?_ b
  show HM.bind _ f h = _
  simp only [HM.bind, ex]

theorem mulH_sim {h0 l : Heap α} (C : Cfg α) (k : Key) (c : Nat) {t : Option Ref} {v : Option (List α)} (e : NewOpt h0.length (h0 ++ l) t v) :
    Sim h0 (mulH C k c t) (h0 ++ l) (match v with
      | some t => do let b ← member C k c; .ok (some (mulArr t b))
      | none => do let b ← member C k c; .ok (some b)) (NewOpt h0.length) := by
  cases t with
  | none =>
    cases v with
    | some _ => exact e.elim
    | none =>
      unfold mulH
      refine Sim.lift fun b _ => ?_
      exact Sim.new (Sim.pure ⟨by simp, get_new (k := l.length) (by simp)⟩)
  | some t =>
    cases v with
    | none => exact e.elim
    | some v =>
      unfold mulH
      refine Sim.lift fun b _ => ?_
      have e1 : h0.length ≤ t := e.1
      have e2 : (h0 ++ l)[t]? = some (.flt .float v) := e.2
      obtain ⟨j, rfl⟩ : ∃ j, t = h0.length + j := ⟨t - h0.length, (Nat.add_sub_cancel' e1).symm⟩
      have e3 : l[j]? = some (.flt .float v) := by
        rw [List.getElem?_append_right (by omega), show h0.length + j - h0.length = j by omega] at e2
        exact e2
      refine Sim.updF e3 (Sim.pure ⟨by omega, get_new ?_⟩)
      rw [List.getElem?_set_self (List.getElem?_eq_some_iff.mp e3).1]

theorem polH_sim {h : Heap α} (C : Cfg α) (c : Nat) :
    Sim h (polH C c) h (if polFlag C then (do let t ← polTest C c; .ok (some t)) else .ok none) (NewOpt h.length) := by
  unfold polH
  refine Sim.ite (fun _ => ?_) (fun _ => Sim.pure0 trivial)
  refine Sim.lift0 fun b _ => ?_
  have : Sim h (Heap.new (.flt .float b) >>= fun r => Pure.pure (some r)) (h ++ []) (.ok (some b)) (NewOpt h.length) :=
    Sim.new (Sim.pure ⟨by simp, get_new (k := 0) rfl⟩)
  rw [List.append_nil] at this; exact this

theorem newF_sim {h : Heap α} (b : List α) : Sim h (newF .float b) h (.ok b) (NewF h.length) := by
  have : Sim h (Heap.new (.flt .float b)) (h ++ []) (.ok b) (NewF h.length) :=
    Sim.new' ⟨by simp, get_new (k := 0) rfl⟩
  rw [List.append_nil] at this; exact this

theorem testForH_sim {n : Nat} {h : Heap α} {D : Key → Option Ref} {d : Key → Option (List α)} (mk : (Key → Option (List α)) → Cfg α)
    (e : NewAll n h D d) (c : Nat) : Sim h (testForH mk D c) h (testFor (mk d) c) (NewF h.length) := by
  unfold testForH testFor
  refine readAllH_sim e ?_
  dsimp only
  generalize mk d = C
  refine Sim.ite (fun _ => ?_) (fun _ => Sim.ite (fun _ => ?_) (fun _ => Sim.raise0))
  · refine Sim.bind (polH_sim C c) fun w v l _ r => ?_
    refine Sim.bind (R := NewOpt h.length) ?_ fun w v l _ r => ?_
    · exact Sim.ite (fun _ => mulH_sim C .T c r) (fun _ => Sim.pure r)
    refine Sim.bind (R := NewOpt h.length) ?_ fun w v l _ r => ?_
    · exact Sim.ite (fun _ => mulH_sim C .DZ c r) (fun _ => Sim.pure r)
    cases w with
    | none =>
      cases v with
      | none => exact Sim.raise (α := α)
      | some _ => exact r.elim
    | some w =>
      cases v with
      | none => exact r.elim
      | some v => exact Sim.pure r
  · have : (polTest C c >>= fun t => .ok t) = polTest C c := by cases polTest C c <;> rfl
    have key : Sim h (Heap.lift (polTest C c) >>= fun t => newF .float t) h (polTest C c >>= fun t => .ok t) (NewF h.length) :=
      Sim.lift0 fun b _ => newF_sim b
    rw [this] at key
    exact key

/-- new arrays for the rows -/
def NewRows (n : Nat) (g : Heap α) (rs : List Ref) (rows : List (List α)) : Prop := List.Forall₂ (NewF n g) rs rows

theorem forall₂_weaken {β γ : Type} {R S : β → γ → Prop} (h : ∀ a b, R a b → S a b) {l : List β} {m : List γ}
    (e : List.Forall₂ R l m) : List.Forall₂ S l m := by
  induction e with
  | nil => exact .nil
  | cons a _ ih => exact .cons (h _ _ a) ih

theorem forall₂_length {β γ : Type} {R : β → γ → Prop} {l : List β} {m : List γ} (e : List.Forall₂ R l m) : l.length = m.length := by
  induction e with
  | nil => rfl
  | cons _ _ ih => simp [ih]

theorem NewRows.mono {n n' : Nat} (hn : n ≤ n') {h l : Heap α} {rs : List Ref} {rows : List (List α)} (e : NewRows n' h rs rows) :
    NewRows n (h ++ l) rs rows := forall₂_weaken (fun _ _ r => ⟨Nat.le_trans hn r.1, get_old r.2⟩) e

theorem NewRows.le {n n' : Nat} (hn : n ≤ n') {h : Heap α} {rs : List Ref} {rows : List (List α)} (e : NewRows n' h rs rows) :
    NewRows n h rs rows := forall₂_weaken (fun _ _ r => ⟨Nat.le_trans hn r.1, r.2⟩) e

theorem NewAll.mono {n : Nat} {h l : Heap α} {D : Key → Option Ref} {d : Key → Option (List α)} (e : NewAll n h D d) : NewAll n (h ++ l) D d :=
  fun k => (e k).mono

theorem testListH_sim {n : Nat} {h : Heap α} {D : Key → Option Ref} {d : Key → Option (List α)} (mk : (Key → Option (List α)) → Cfg α)
    (e : NewAll n h D d) (cs : List Nat) : Sim h (testListH mk D cs) h (getTestList (mk d) cs) (NewRows h.length) := by
  unfold getTestList
  induction cs generalizing h with
  | nil => exact Sim.pure0 .nil
  | cons c cs ih =>
    rw [List.mapM_cons]
    unfold testListH
    refine Sim.seq (testForH_sim mk e c) fun w v l _ r => ?_
    refine Sim.seq (ih e.mono) fun w' v' l' _ r' => ?_
    exact Sim.pure0 (.cons r.mono (r'.le (by simp)))

theorem copyRowsH_sim {n : Nat} {h : Heap α} {rs : List Ref} {rows : List (List α)} (e : NewRows n h rs rows) :
    Sim h (copyRowsH rs) h (.ok rows) (NewRows h.length) := by
  induction rs generalizing h rows with
  | nil =>
    cases e
    exact Sim.pure0 .nil
  | cons r rs ih =>
    cases e with
    | @cons _ v _ rows a b =>
      unfold copyRowsH
      refine Sim.getF a.2 ?_
      refine Sim.seq (k := fun _ => .ok (v :: rows)) (newF_sim v) fun w v' l ev r' => ?_
      cases ev
      refine Sim.seq (k := fun _ => .ok (v :: rows)) (ih (NewRows.mono (Nat.le_refl n) b)) fun w' v' l' ev r'' => ?_
      cases ev
      exact Sim.pure0 (.cons r'.mono (r''.le (by simp)))

theorem rowsH_run {n : Nat} {h : Heap α} {rs : List Ref} {rows : List (List α)} (e : NewRows n h rs rows) :
    rowsH rs h = (.ok rows, h) := by
  induction rs generalizing rows with
  | nil => cases e; rfl
  | cons r rs ih =>
    cases e with
    | @cons _ v _ rows a b =>
      show HM.bind (Heap.getF r) _ h = _
      simp only [HM.bind, show Heap.getF r h = _ from runs_getF a.2]
      show HM.bind (rowsH rs) _ h = _
      simp only [HM.bind, ih b]
      rfl

/-- a new integer array -/
def NewI (n : Nat) (g : Heap α) (r : Ref) (v : List Int) : Prop := n ≤ r ∧ g[r]? = some (.int v)

theorem classifyH_sim {n : Nat} {h : Heap α} (sz : Nat) {rs : List Ref} {rows : List (List α)} (e : NewRows n h rs rows) :
    Sim h (classifyH sz rs) h (.ok ((classify sz rows).map Int.ofNat)) (NewI h.length) := by
  have : Sim h (newI ((classify sz rows).map Int.ofNat)) h (.ok ((classify sz rows).map Int.ofNat)) (NewI h.length) := by
    have : Sim h (Heap.new (.int ((classify sz rows).map Int.ofNat))) (h ++ []) (.ok ((classify sz rows).map Int.ofNat)) (NewI h.length) :=
      Sim.new' ⟨by simp, get_new (k := 0) rfl⟩
    rw [List.append_nil] at this; exact this
  refine Sim.of_eq ?_ this
  show HM.bind (rowsH rs) _ h = _
  simp only [HM.bind, rowsH_run e]

/-- the configuration read from the references is that of the contents -/
theorem mkCfgH_eq {h : Heap α} {R : InRefs} {I : Inputs α} (e : HoldsIn h R I) (dz : NdArray α) (useTemp : Bool) (w : Key → Nat → α)
    (sets : Sets α) (hybrid trap : Bool) :
    mkCfgH R dz.data.length useTemp w sets hybrid trap (radarData I) = mkCfg I dz useTemp w sets hybrid trap := by
  unfold mkCfgH mkCfg fhcVars
  congr 1
  funext k
  rw [(e k).isSome]

/-- an optional score array -/
def NewMu (n : Nat) (g : Heap α) : Option (List Ref) → Option (List (List α)) → Prop
  | none, none => True
  | some rs, some rows => NewRows n g rs rows
  | _, _ => False

theorem muH_sim {h : Heap α} {R : InRefs} {I : Inputs α} {n : Nat} {D : Key → Option Ref} (e : HoldsIn h R I) (eD : NewAll n h D (radarData I))
    (dz : NdArray α) (useTemp : Bool) (w : Key → Nat → α) (sets : Sets α) (trap : Bool) (types : List Nat) (m : Option Bool) :
    Sim h (muH D (fun hybrid => mkCfgH R dz.data.length useTemp w sets hybrid trap) types m) h
      (match m with
      | none => .ok none
      | some hybrid => do
        let rows ← getTestList (mkCfg I dz useTemp w sets hybrid trap) types
        .ok (some rows)) (NewMu h.length) := by
  cases m with
  | none => exact Sim.pure0 trivial
  | some hybrid =>
    unfold muH
    dsimp only
    rw [← mkCfgH_eq e]
    refine Sim.seq (testListH_sim _ eD types) fun w v l _ r => ?_
    refine Sim.seq (k := fun _ => .ok (some v)) (copyRowsH_sim r) fun w' v' l' ev r' => ?_
    cases ev
    exact Sim.pure0 (r'.le (by simp))

end Csu.Heap
