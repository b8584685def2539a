import Verif.Lemmas.HeapRun
import Verif.Model.Objects2
/-!
# Programs on array objects that compute what a value model computes

`Sim h0 p h x R`: started on the heap `h`, `p` leaves a heap that extends `h0`, raises what `x` raises, and otherwise returns something related by
`R` to the value of `x`.
-/
namespace Csu.Heap
open Csu PyFloat Tables Fhc
variable {α β γ δ ε : Type}

def Sim (h0 : Heap α) (p : HM α β) (h : Heap α) (x : Except PyErr γ) (R : Heap α → β → γ → Prop) : Prop :=
  ∃ l, (p h).2 = h0 ++ l ∧ match x with
    | .error e => (p h).1 = .error e
    | .ok v => ∃ w, (p h).1 = .ok w ∧ R (p h).2 w v

theorem Sim.pure {h0 l : Heap α} {w : β} {v : γ} {R : Heap α → β → γ → Prop} (r : R (h0 ++ l) w v) :
    Sim h0 (Pure.pure w : HM α β) (h0 ++ l) (.ok v) R := ⟨l, rfl, w, rfl, r⟩

theorem Sim.pure0 {h : Heap α} {w : β} {v : γ} {R : Heap α → β → γ → Prop} (r : R h w v) :
    Sim h (Pure.pure w : HM α β) h (.ok v) R := ⟨[], by simp [Pure.pure], w, rfl, r⟩

theorem Sim.raise {h0 l : Heap α} {e : PyErr} {R : Heap α → β → γ → Prop} :
    Sim h0 (raise e : HM α β) (h0 ++ l) (.error e) R := ⟨l, rfl, rfl⟩

theorem Sim.raise0 {h : Heap α} {e : PyErr} {R : Heap α → β → γ → Prop} :
    Sim h (Heap.raise e : HM α β) h (.error e) R := ⟨[], (List.append_nil h).symm, rfl⟩

/-- the same computation -/
theorem Sim.of_eq {h0 h g : Heap α} {p q : HM α β} {x : Except PyErr γ} {R : Heap α → β → γ → Prop} (e : p h = q g)
    (a : Sim h0 q g x R) : Sim h0 p h x R := by
  unfold Sim; rw [e]; exact a

theorem Sim.bind {h0 h : Heap α} {p : HM α β} {f : β → HM α δ} {x : Except PyErr γ} {k : γ → Except PyErr ε}
    {R : Heap α → β → γ → Prop} {S : Heap α → δ → ε → Prop} (a : Sim h0 p h x R)
    (b : ∀ w v l, x = .ok v → R (h0 ++ l) w v → Sim h0 (f w) (h0 ++ l) (k v) S) : Sim h0 (p >>= f) h (x >>= k) S := by
  obtain ⟨l, e, a⟩ := a
  show ∃ l, (HM.bind p f h).2 = _ ∧ _
  rcases hp : p h with ⟨r, g⟩
  rw [hp] at e a
  dsimp only at e a
  subst e
  cases x with
  | error y =>
    dsimp only at a
    subst a
    exact ⟨l, by simp only [HM.bind, hp], by show (HM.bind p f h).1 = _; simp only [HM.bind, hp]⟩
  | ok v =>
    obtain ⟨w, rfl, r⟩ := a
    have := b w v l rfl r
    have e : HM.bind p f h = f w (h0 ++ l) := by simp only [HM.bind, hp]
    obtain ⟨l', q, z⟩ := this
    refine ⟨l', by rw [e]; exact q, ?_⟩
    show match k v with
      | .error e => (HM.bind p f h).1 = .error e
      | .ok v => ∃ w, (HM.bind p f h).1 = .ok w ∧ S (HM.bind p f h).2 w v
    rw [e]; exact z

/-- a step of the program without a step of the value model -/
theorem Sim.step {h0 h : Heap α} {p : HM α β} {f : β → HM α δ} {v : γ} {x : Except PyErr ε}
    {R : Heap α → β → γ → Prop} {S : Heap α → δ → ε → Prop} (a : Sim h0 p h (.ok v) R)
    (b : ∀ w l, R (h0 ++ l) w v → Sim h0 (f w) (h0 ++ l) x S) : Sim h0 (p >>= f) h x S :=
  Sim.bind (k := fun _ => x) a (fun w _ l e r => by cases e; exact b w l r)

/-- a function that only extends the heap it is called on -/
theorem Sim.base {h0 l0 : Heap α} {p : HM α β} {x : Except PyErr γ} {R : Heap α → β → γ → Prop} (a : Sim (h0 ++ l0) p (h0 ++ l0) x R) :
    Sim h0 p (h0 ++ l0) x (fun g w v => R g w v ∧ ∃ l, g = h0 ++ l0 ++ l) := by
  obtain ⟨l, e, a⟩ := a
  refine ⟨l0 ++ l, by rw [e, List.append_assoc], ?_⟩
  cases x with
  | error _ => exact a
  | ok v =>
    obtain ⟨w, e1, r⟩ := a
    exact ⟨w, e1, r, l, e⟩

theorem Sim.weaken {h0 h : Heap α} {p : HM α β} {x : Except PyErr γ} {R S : Heap α → β → γ → Prop} (a : Sim h0 p h x R)
    (b : ∀ g w v, R g w v → S g w v) : Sim h0 p h x S := by
  obtain ⟨l, e, a⟩ := a
  refine ⟨l, e, ?_⟩
  cases x with
  | error _ => exact a
  | ok v =>
    obtain ⟨w, e1, r⟩ := a
    exact ⟨w, e1, b _ _ _ r⟩

/-- calls of functions that only extend the heap, one after the other -/
theorem Sim.seq {h : Heap α} {p : HM α β} {f : β → HM α δ} {x : Except PyErr γ} {k : γ → Except PyErr ε}
    {R : Heap α → β → γ → Prop} {S : Heap α → δ → ε → Prop} (a : Sim h p h x R)
    (b : ∀ w v l, x = .ok v → R (h ++ l) w v → Sim (h ++ l) (f w) (h ++ l) (k v) S) : Sim h (p >>= f) h (x >>= k) S :=
  Sim.bind a (fun w v l e r => ((b w v l e r).base).weaken (fun _ _ _ q => q.1))

theorem Sim.getF {h0 h : Heap α} {r : Ref} {dt : DType} {xs : List α} {f : DType × List α → HM α δ} {x : Except PyErr ε}
    {S : Heap α → δ → ε → Prop} (e : h[r]? = some (.flt dt xs)) (b : Sim h0 (f (dt, xs)) h x S) : Sim h0 (Heap.getF r >>= f) h x S := by
  refine Sim.of_eq ?_ b
  show HM.bind _ f h = _
  simp only [HM.bind, show Heap.getF r h = _ from runs_getF e]

theorem Sim.getI {h0 h : Heap α} {r : Ref} {xs : List Int} {f : List Int → HM α δ} {x : Except PyErr ε}
    {S : Heap α → δ → ε → Prop} (e : h[r]? = some (.int xs)) (b : Sim h0 (f xs) h x S) : Sim h0 (Heap.getI r >>= f) h x S := by
  refine Sim.of_eq ?_ b
  show HM.bind _ f h = _
  simp only [HM.bind, show Heap.getI r h = _ from runs_getI e]

theorem Sim.getB {h0 h : Heap α} {r : Ref} {xs : List Bool} {f : List Bool → HM α δ} {x : Except PyErr ε}
    {S : Heap α → δ → ε → Prop} (e : h[r]? = some (.bool xs)) (b : Sim h0 (f xs) h x S) : Sim h0 (Heap.getB r >>= f) h x S := by
  refine Sim.of_eq ?_ b
  show HM.bind _ f h = _
  simp only [HM.bind, show Heap.getB r h = _ from runs_getB e]

theorem Sim.lift {h0 l : Heap α} {x : Except PyErr γ} {f : γ → HM α δ} {k : γ → Except PyErr ε} {S : Heap α → δ → ε → Prop}
    (b : ∀ v, x = .ok v → Sim h0 (f v) (h0 ++ l) (k v) S) : Sim h0 (Heap.lift x >>= f) (h0 ++ l) (x >>= k) S := by
  refine Sim.bind (R := fun g w v => g = h0 ++ l ∧ w = v) ⟨l, rfl, ?_⟩ ?_
  · cases x with
    | error _ => rfl
    | ok v => exact ⟨v, rfl, rfl, rfl⟩
  · rintro w v l' e ⟨e2, rfl⟩
    rw [e2]; exact b _ e

theorem Sim.lift0 {h : Heap α} {x : Except PyErr γ} {f : γ → HM α δ} {k : γ → Except PyErr ε} {S : Heap α → δ → ε → Prop}
    (b : ∀ v, x = .ok v → Sim h (f v) h (k v) S) : Sim h (Heap.lift x >>= f) h (x >>= k) S := by
  have := Sim.lift (h0 := h) (l := []) (x := x) (f := f) (k := k) (S := S) (by simpa using b)
  simpa using this

theorem Sim.new {h0 l : Heap α} {c : Cell α} {f : Ref → HM α δ} {x : Except PyErr ε} {S : Heap α → δ → ε → Prop}
    (b : Sim h0 (f (h0.length + l.length)) (h0 ++ (l ++ [c])) x S) : Sim h0 (Heap.new c >>= f) (h0 ++ l) x S := by
  refine Sim.of_eq ?_ b
  show HM.bind _ f _ = _
  simp [HM.bind, Heap.new]

theorem Sim.new' {h0 l : Heap α} {c : Cell α} {v : γ} {S : Heap α → Ref → γ → Prop}
    (b : S (h0 ++ (l ++ [c])) (h0.length + l.length) v) : Sim h0 (Heap.new c) (h0 ++ l) (.ok v) S :=
  ⟨l ++ [c], by simp [Heap.new], h0.length + l.length, by simp [Heap.new], by simpa [Heap.new] using b⟩

theorem Sim.updF {h0 l : Heap α} {k : Nat} {g : List α → List α} {dt : DType} {xs : List α} {f : Unit → HM α δ} {x : Except PyErr ε}
    {S : Heap α → δ → ε → Prop} (e : l[k]? = some (.flt dt xs)) (b : Sim h0 (f ()) (h0 ++ l.set k (.flt dt (g xs))) x S) :
    Sim h0 (Heap.updF (h0.length + k) g >>= f) (h0 ++ l) x S := by
  refine Sim.of_eq ?_ b
  show HM.bind _ f _ = _
  unfold HM.bind Heap.updF
  rw [get_new e, ← set_new]

theorem Sim.updI {h0 l : Heap α} {k : Nat} {g : List Int → List Int} {xs : List Int} {f : Unit → HM α δ} {x : Except PyErr ε}
    {S : Heap α → δ → ε → Prop} (e : l[k]? = some (.int xs)) (b : Sim h0 (f ()) (h0 ++ l.set k (.int (g xs))) x S) :
    Sim h0 (Heap.updI (h0.length + k) g >>= f) (h0 ++ l) x S := by
  refine Sim.of_eq ?_ b
  show HM.bind _ f _ = _
  unfold HM.bind Heap.updI
  rw [get_new e, ← set_new]

theorem Sim.ite {h0 h : Heap α} {c : Prop} [Decidable c] {p q : HM α β} {x y : Except PyErr γ} {R : Heap α → β → γ → Prop}
    (a : c → Sim h0 p h x R) (b : ¬ c → Sim h0 q h y R) : Sim h0 (if c then p else q) h (if c then x else y) R := by
  split
  · exact a ‹_›
  · exact b ‹_›

end Csu.Heap
