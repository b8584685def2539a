import Verif.Heap
/-!
# Reasoning about programs on array objects

`Keeps n p Q`: started on a heap with at least `n` objects, `p` leaves the first `n` objects as they are, also if it raises, and a
value it returns satisfies `Q`.
-/
namespace Csu.Heap
open Csu PyFloat
variable {α β γ : Type}

def Keeps (n : Nat) (p : HM α β) (Q : β → Prop) : Prop :=
  ∀ h : Heap α, n ≤ h.length → n ≤ (p h).2.length ∧ (p h).2.take n = h.take n ∧ ∀ v, (p h).1 = .ok v → Q v

theorem Keeps.pure {n : Nat} {v : β} {Q : β → Prop} (hv : Q v) : Keeps n (Pure.pure v : HM α β) Q :=
  fun _ hn => ⟨hn, rfl, fun _ e => by cases e; exact hv⟩

theorem Keeps.raise {n : Nat} {e : PyErr} {Q : β → Prop} : Keeps n (raise e : HM α β) Q :=
  fun _ hn => ⟨hn, rfl, fun _ h => by cases h⟩

theorem Keeps.lift {n : Nat} {x : Except PyErr β} : Keeps n (lift x : HM α β) (fun v => x = .ok v) :=
  fun _ hn => ⟨hn, rfl, fun _ e => e⟩

theorem Keeps.bind {n : Nat} {p : HM α β} {f : β → HM α γ} {Q : β → Prop} {R : γ → Prop} (hp : Keeps n p Q)
    (hf : ∀ v, Q v → Keeps n (f v) R) : Keeps n (p >>= f) R := by
  intro h hn
  obtain ⟨a, b, c⟩ := hp h hn
  show n ≤ (HM.bind p f h).2.length ∧ (HM.bind p f h).2.take n = h.take n ∧ ∀ v, (HM.bind p f h).1 = .ok v → R v
  unfold HM.bind
  rcases e : p h with ⟨r, h'⟩
  rw [e] at a b c
  cases r with
  | error x => exact ⟨a, b, fun v hv => by cases hv⟩
  | ok v =>
    obtain ⟨a', b', c'⟩ := hf v (c v rfl) h' a
    exact ⟨a', by simpa [b] using b', c'⟩

theorem Keeps.weaken {n : Nat} {p : HM α β} {Q R : β → Prop} (hp : Keeps n p Q) (h : ∀ v, Q v → R v) : Keeps n p R :=
  fun g hn => ⟨(hp g hn).1, (hp g hn).2.1, fun v e => h v ((hp g hn).2.2 v e)⟩

theorem Keeps.new {n : Nat} {c : Cell α} : Keeps n (new c) (n ≤ ·) := by
  intro h hn
  refine ⟨by simp [Heap.new]; omega, by simp [Heap.new, List.take_append_of_le_length hn], fun v e => ?_⟩
  cases e
  exact hn

theorem Keeps.newF {n : Nat} {dt : DType} {xs : List α} : Keeps n (newF dt xs) (n ≤ ·) := Keeps.new
theorem Keeps.newI {n : Nat} {xs : List Int} : Keeps n (newI xs : HM α Ref) (n ≤ ·) := Keeps.new
theorem Keeps.newB {n : Nat} {xs : List Bool} : Keeps n (newB xs : HM α Ref) (n ≤ ·) := Keeps.new

theorem Keeps.getF {n : Nat} {r : Ref} : Keeps n (getF r : HM α _) (fun _ => True) := by
  intro h hn
  unfold Heap.getF
  split <;> exact ⟨hn, rfl, fun _ _ => trivial⟩
theorem Keeps.getI {n : Nat} {r : Ref} : Keeps n (getI r : HM α _) (fun _ => True) := by
  intro h hn
  unfold Heap.getI
  split <;> exact ⟨hn, rfl, fun _ _ => trivial⟩
theorem Keeps.getB {n : Nat} {r : Ref} : Keeps n (getB r : HM α _) (fun _ => True) := by
  intro h hn
  unfold Heap.getB
  split <;> exact ⟨hn, rfl, fun _ _ => trivial⟩

theorem take_set_of_le {l : List β} {n r : Nat} (hr : n ≤ r) (v : β) : (l.set r v).take n = l.take n := by
  rw [List.take_set]
  exact List.set_eq_of_length_le (by simp; omega)

theorem Keeps.updF {n : Nat} {r : Ref} {f : List α → List α} (hr : n ≤ r) : Keeps n (updF r f) (fun _ => True) := by
  intro h hn
  unfold Heap.updF
  split
  · exact ⟨by simpa using hn, take_set_of_le hr _, fun _ _ => trivial⟩
  · exact ⟨hn, rfl, fun _ _ => trivial⟩
theorem Keeps.updI {n : Nat} {r : Ref} {f : List Int → List Int} (hr : n ≤ r) :
    Keeps n (updI r f : HM α _) (fun _ => True) := by
  intro h hn
  unfold Heap.updI
  split
  · exact ⟨by simpa using hn, take_set_of_le hr _, fun _ _ => trivial⟩
  · exact ⟨hn, rfl, fun _ _ => trivial⟩
theorem Keeps.updB {n : Nat} {r : Ref} {f : List Bool → List Bool} (hr : n ≤ r) :
    Keeps n (updB r f : HM α _) (fun _ => True) := by
  intro h hn
  unfold Heap.updB
  split
  · exact ⟨by simpa using hn, take_set_of_le hr _, fun _ _ => trivial⟩
  · exact ⟨hn, rfl, fun _ _ => trivial⟩

theorem Keeps.ite {n : Nat} {c : Prop} [Decidable c] {p q : HM α β} {Q : β → Prop} (hp : Keeps n p Q) (hq : Keeps n q Q) :
    Keeps n (if c then p else q) Q := by split <;> assumption

/-- the consequence for a caller: all objects that existed before the call are as they were -/
theorem Keeps.caller {p : HM α β} {Q : Nat → β → Prop} (hp : ∀ n, Keeps n p (Q n)) (h : Heap α) :
    (∀ (r : Nat) c, h[r]? = some c → (p h).2[r]? = some c) ∧ ∀ v, (p h).1 = .ok v → Q h.length v := by
  obtain ⟨_, b, c⟩ := hp h.length h (Nat.le_refl _)
  refine ⟨fun r x hx => ?_, c⟩
  have hr : r < h.length := by
    rcases Nat.lt_or_ge r h.length with hc | hc
    · exact hc
    · rw [List.getElem?_eq_none hc] at hx
      cases hx
  rw [List.take_length] at b
  have := congrArg (·[r]?) b
  simp only [List.getElem?_take_of_lt hr] at this
  rw [this, hx]

end Csu.Heap
