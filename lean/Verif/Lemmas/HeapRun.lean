import Verif.Heap
/-!
# Running programs on array objects

`Runs p h v h'`: started on the heap `h`, `p` returns `v` and leaves `h'`.  `Post p h Q`: `p` ends, with a value or an exception and a heap that satisfy `Q`.
-/
namespace Csu.Heap
open Csu PyFloat
variable {α β γ : Type}

def Runs (p : HM α β) (h : Heap α) (v : β) (h' : Heap α) : Prop := p h = (.ok v, h')

def Post (p : HM α β) (h : Heap α) (Q : Except PyErr β → Heap α → Prop) : Prop := Q (p h).1 (p h).2

theorem Post.dest {p : HM α β} {h : Heap α} {Q : Except PyErr β → Heap α → Prop} (a : Post p h Q) : ∃ r h', p h = (r, h') ∧ Q r h' :=
  ⟨_, _, rfl, a⟩

theorem Runs.bind {p : HM α β} {f : β → HM α γ} {h h' h'' : Heap α} {v : β} {w : γ} (a : Runs p h v h')
    (b : Runs (f v) h' w h'') : Runs (p >>= f) h w h'' := by
  show HM.bind p f h = _
  unfold HM.bind
  rw [show p h = _ from a]
  exact b

theorem Post.bind {p : HM α β} {f : β → HM α γ} {h h' : Heap α} {v : β} {Q : Except PyErr γ → Heap α → Prop} (a : Runs p h v h')
    (b : Post (f v) h' Q) : Post (p >>= f) h Q := by
  show Q (HM.bind p f h).1 (HM.bind p f h).2
  unfold HM.bind
  rw [show p h = _ from a]
  exact b

/-- an exception ends the program -/
theorem Post.bind_error {p : HM α β} {f : β → HM α γ} {h h' : Heap α} {e : PyErr} {Q : Except PyErr γ → Heap α → Prop}
    (a : p h = (.error e, h')) (b : Q (.error e) h') : Post (p >>= f) h Q := by
  show Q (HM.bind p f h).1 (HM.bind p f h).2
  unfold HM.bind
  rw [a]
  exact b

theorem Post.lift_error {x : Except PyErr β} {f : β → HM α γ} {h : Heap α} {e : PyErr} {Q : Except PyErr γ → Heap α → Prop}
    (a : x = .error e) (b : Q (.error e) h) : Post (lift x >>= f) h Q := Post.bind_error (by rw [a]; rfl) b

theorem Post.of_runs {p : HM α β} {h h' : Heap α} {v : β} {Q : Except PyErr β → Heap α → Prop} (a : Runs p h v h') (q : Q (.ok v) h') :
    Post p h Q := by
  show Q (p h).1 (p h).2
  rw [show p h = _ from a]
  exact q

theorem Post.pure {h : Heap α} {v : β} {Q : Except PyErr β → Heap α → Prop} (q : Q (.ok v) h) : Post (Pure.pure v : HM α β) h Q := q

theorem Post.elim {p : HM α β} {h h' : Heap α} {v : β} (a : Post p h (fun r g => r = .ok v ∧ g = h')) : Runs p h v h' := by
  obtain ⟨_, _, r, rfl, rfl⟩ := a.dest
  exact r

/-- the heap after the call extends the caller's heap `h` by `l` -/
theorem get_old {h l : Heap α} {r : Ref} {c : Cell α} (e : h[r]? = some c) : (h ++ l)[r]? = some c := by
  have hr : r < h.length := by
    rcases Nat.lt_or_ge r h.length with hc | hc
    · exact hc
    · rw [List.getElem?_eq_none hc] at e
      cases e
  rw [List.getElem?_append_left hr, e]

theorem get_new {h l : Heap α} {k : Nat} {c : Cell α} (e : l[k]? = some c) : (h ++ l)[h.length + k]? = some c := by
  rw [List.getElem?_append_right (by omega), show h.length + k - h.length = k by omega, e]

theorem set_new {h l : Heap α} {k : Nat} {c : Cell α} : (h ++ l).set (h.length + k) c = h ++ l.set k c := by
  rw [List.set_append_right _ _ (by omega), show h.length + k - h.length = k by omega]

theorem runs_getF {h : Heap α} {r : Ref} {dt : DType} {xs : List α} (e : h[r]? = some (.flt dt xs)) : Runs (getF r) h (dt, xs) h := by
  unfold Runs getF
  rw [e]
theorem runs_getI {h : Heap α} {r : Ref} {xs : List Int} (e : h[r]? = some (.int xs)) : Runs (getI r) h xs h := by
  unfold Runs getI
  rw [e]
theorem runs_getB {h : Heap α} {r : Ref} {xs : List Bool} (e : h[r]? = some (.bool xs)) : Runs (getB r) h xs h := by
  unfold Runs getB
  rw [e]
theorem runs_lift {h : Heap α} {x : Except PyErr β} {v : β} (e : x = .ok v) : Runs (lift x) h v h := by
  unfold Runs lift
  rw [e]

/-- a new array: its contents become a variable with an equation -/
theorem post_newF {h l : Heap α} {dt : DType} {xs : List α} {f : Ref → HM α γ} {Q : Except PyErr γ → Heap α → Prop}
    (b : ∀ ys, ys = xs → Post (f (h.length + l.length)) (h ++ (l ++ [.flt dt ys])) Q) : Post (newF dt xs >>= f) (h ++ l) Q := by
  refine Post.bind (v := h.length + l.length) (h' := h ++ (l ++ [.flt dt xs])) ?_ (b xs rfl)
  simp [Runs, newF, new]
theorem post_newI {h l : Heap α} {xs : List Int} {f : Ref → HM α γ} {Q : Except PyErr γ → Heap α → Prop}
    (b : ∀ ys, ys = xs → Post (f (h.length + l.length)) (h ++ (l ++ [.int ys])) Q) : Post (newI xs >>= f) (h ++ l) Q := by
  refine Post.bind (v := h.length + l.length) (h' := h ++ (l ++ [.int xs])) ?_ (b xs rfl)
  simp [Runs, newI, new]
theorem post_newB {h l : Heap α} {xs : List Bool} {f : Ref → HM α γ} {Q : Except PyErr γ → Heap α → Prop}
    (b : ∀ ys, ys = xs → Post (f (h.length + l.length)) (h ++ (l ++ [.bool ys])) Q) : Post (newB xs >>= f) (h ++ l) Q := by
  refine Post.bind (v := h.length + l.length) (h' := h ++ (l ++ [.bool xs])) ?_ (b xs rfl)
  simp [Runs, newB, new]

theorem post_updF {h l : Heap α} {k : Nat} {g : List α → List α} {f : Unit → HM α γ} {Q : Except PyErr γ → Heap α → Prop} (dt : DType) (xs : List α)
    (e : l[k]? = some (.flt dt xs)) (b : ∀ ys, ys = g xs → Post (f ()) (h ++ l.set k (.flt dt ys)) Q) :
    Post (updF (h.length + k) g >>= f) (h ++ l) Q := by
  refine Post.bind (v := ()) (h' := h ++ l.set k (.flt dt (g xs))) ?_ (b _ rfl)
  unfold Runs updF
  rw [get_new e, ← set_new]
theorem post_updI {h l : Heap α} {k : Nat} {g : List Int → List Int} {f : Unit → HM α γ} {Q : Except PyErr γ → Heap α → Prop} (xs : List Int)
    (e : l[k]? = some (.int xs)) (b : ∀ ys, ys = g xs → Post (f ()) (h ++ l.set k (.int ys)) Q) :
    Post (updI (h.length + k) g >>= f) (h ++ l) Q := by
  refine Post.bind (v := ()) (h' := h ++ l.set k (.int (g xs))) ?_ (b _ rfl)
  unfold Runs updI
  rw [get_new e, ← set_new]
theorem post_updB {h l : Heap α} {k : Nat} {g : List Bool → List Bool} {f : Unit → HM α γ} {Q : Except PyErr γ → Heap α → Prop} (xs : List Bool)
    (e : l[k]? = some (.bool xs)) (b : ∀ ys, ys = g xs → Post (f ()) (h ++ l.set k (.bool ys)) Q) :
    Post (updB (h.length + k) g >>= f) (h ++ l) Q := by
  refine Post.bind (v := ()) (h' := h ++ l.set k (.bool (g xs))) ?_ (b _ rfl)
  unfold Runs updB
  rw [get_new e, ← set_new]

theorem post_newF' {h l : Heap α} {dt : DType} {xs : List α} {Q : Except PyErr Ref → Heap α → Prop}
    (b : ∀ ys, ys = xs → Q (.ok (h.length + l.length)) (h ++ (l ++ [.flt dt ys]))) : Post (newF dt xs) (h ++ l) Q := by
  refine Post.of_runs (v := h.length + l.length) (h' := h ++ (l ++ [.flt dt xs])) ?_ (b xs rfl)
  simp [Runs, newF, new]
theorem post_newB' {h l : Heap α} {xs : List Bool} {Q : Except PyErr Ref → Heap α → Prop}
    (b : ∀ ys, ys = xs → Q (.ok (h.length + l.length)) (h ++ (l ++ [.bool ys]))) : Post (newB xs) (h ++ l) Q := by
  refine Post.of_runs (v := h.length + l.length) (h' := h ++ (l ++ [.bool xs])) ?_ (b xs rfl)
  simp [Runs, newB, new]

theorem post_updF' {h l : Heap α} {k : Nat} {g : List α → List α} {Q : Except PyErr Unit → Heap α → Prop} (dt : DType) (xs : List α)
    (e : l[k]? = some (.flt dt xs)) (b : ∀ ys, ys = g xs → Q (.ok ()) (h ++ l.set k (.flt dt ys))) :
    Post (updF (h.length + k) g) (h ++ l) Q := by
  refine Post.of_runs (v := ()) (h' := h ++ l.set k (.flt dt (g xs))) ?_ (b _ rfl)
  unfold Runs updF
  rw [get_new e, ← set_new]
theorem post_updI' {h l : Heap α} {k : Nat} {g : List Int → List Int} {Q : Except PyErr Unit → Heap α → Prop} (xs : List Int)
    (e : l[k]? = some (.int xs)) (b : ∀ ys, ys = g xs → Q (.ok ()) (h ++ l.set k (.int ys))) :
    Post (updI (h.length + k) g) (h ++ l) Q := by
  refine Post.of_runs (v := ()) (h' := h ++ l.set k (.int (g xs))) ?_ (b _ rfl)
  unfold Runs updI
  rw [get_new e, ← set_new]

/-- a call that returns one new float array -/
theorem post_callF {p : HM α Ref} {h l : Heap α} {dt : DType} {xs : List α} {f : Ref → HM α γ} {Q : Except PyErr γ → Heap α → Prop}
    (r : Runs p (h ++ l) (h ++ l).length (h ++ l ++ [.flt dt xs]))
    (b : ∀ ys, ys = xs → Post (f (h.length + l.length)) (h ++ (l ++ [.flt dt ys])) Q) : Post (p >>= f) (h ++ l) Q := by
  refine Post.bind r ?_
  have := b xs rfl
  simpa using this

theorem start {p : HM α β} {h : Heap α} {Q : Except PyErr β → Heap α → Prop} (b : Post p (h ++ []) Q) : Post p h Q := by simpa using b

/-- run through a straight-line program; every array object becomes a variable with an equation for its contents -/
macro "run" : tactic => `(tactic| repeat' (first
  | (with_reducible refine Post.bind (runs_getF (get_old (by assumption))) ?_; try dsimp only)
  | (with_reducible refine Post.bind (runs_getI (get_old (by assumption))) ?_; try dsimp only)
  | (with_reducible refine Post.bind (runs_getB (get_old (by assumption))) ?_; try dsimp only)
  | (refine Post.bind (runs_getF (get_new rfl)) ?_; try dsimp only)
  | (refine Post.bind (runs_getI (get_new rfl)) ?_; try dsimp only)
  | (refine Post.bind (runs_getB (get_new rfl)) ?_; try dsimp only)
  | (with_reducible refine post_newF ?_; intro _ _; simp only [List.length_cons, List.length_nil, List.nil_append, List.cons_append,
      Nat.reduceAdd])
  | (with_reducible refine post_newI ?_; intro _ _; simp only [List.length_cons, List.length_nil, List.nil_append, List.cons_append,
      Nat.reduceAdd])
  | (with_reducible refine post_newB ?_; intro _ _; simp only [List.length_cons, List.length_nil, List.nil_append, List.cons_append,
      Nat.reduceAdd])
  | (refine post_updF _ _ rfl ?_; intro _ _; simp only [List.set_cons_zero, List.set_cons_succ])
  | (refine post_updI _ rfl ?_; intro _ _; simp only [List.set_cons_zero, List.set_cons_succ])
  | (refine post_updB _ rfl ?_; intro _ _; simp only [List.set_cons_zero, List.set_cons_succ])))

end Csu.Heap
