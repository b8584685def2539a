import Verif.Model.Kdp
/-! Lemmas about the KDP kernel: safety triples, simulation of the checked by the unchecked kernel. -/
namespace Csu.Kdp
open Csu PyFloat
variable {α : Type} [PyFloat α]

/-! ## Safety triples -/

/-- `x` does not leave its arrays and, if it returns, its value satisfies `P`. -/
def Safe {β : Type} (x : Except PyErr β) (P : β → Prop) : Prop :=
  match x with
  | .ok v => P v
  | .error e => ∀ a i, e ≠ .outOfBounds a i

theorem Safe.bind {β γ : Type} {x : Except PyErr β} {f : β → Except PyErr γ} {P : β → Prop} {Q : γ → Prop}
    (hx : Safe x P) (hf : ∀ v, P v → Safe (f v) Q) : Safe (x >>= f) Q := by
  cases x with
  | error e => exact hx
  | ok v => exact hf v hx

theorem Safe.mono {β : Type} {x : Except PyErr β} {P Q : β → Prop} (hx : Safe x P) (h : ∀ v, P v → Q v) : Safe x Q := by
  cases x with
  | error e => exact hx
  | ok v => exact h v hx

theorem Safe.ok {β : Type} {v : β} {P : β → Prop} (h : P v) : Safe (Except.ok v) P := h

theorem Safe.mapM {β γ : Type} {f : β → Except PyErr γ} {l : List β} {P : γ → Prop}
    (h : ∀ x ∈ l, Safe (f x) P) : Safe (l.mapM f) (fun r => r.length = l.length ∧ ∀ v ∈ r, P v) := by
  induction l with
  | nil => simp [Safe, pure, Except.pure]
  | cons x l ih =>
    rw [List.mapM_cons]
    refine (h x (by simp)).bind fun v hv => (ih fun y hy => h y (by simp [hy])).bind fun r hr => ?_
    show Safe (Except.ok _) _
    exact Safe.ok ⟨by simp [hr.1], by simpa [hv] using hr.2⟩

/-- fold rule with an invariant that may depend on the number of elements processed -/
theorem Safe.foldlM {β σ : Type} {f : σ → β → Except PyErr σ} {l : List β} {s : σ} {I : Nat → σ → Prop} (k : Nat)
    (hs : I k s) (h : ∀ k s x, x ∈ l → I k s → Safe (f s x) (I (k + 1))) : Safe (l.foldlM f s) (I (k + l.length)) := by
  induction l generalizing s k with
  | nil => exact hs
  | cons x l ih =>
    rw [List.foldlM_cons]
    refine (h k s x (by simp) hs).bind fun v hv => ?_
    have := ih (k + 1) hv (fun k s y hy => h k s y (by simp [hy]))
    simpa [Nat.add_assoc, Nat.add_comm 1] using this

/-- fold rule that also knows how many elements remain -/
theorem Safe.foldlM_lt {β σ : Type} {f : σ → β → Except PyErr σ} {l : List β} {s : σ} {I : Nat → σ → Prop} (k : Nat)
    (hs : I k s) (h : ∀ m s x, x ∈ l → m < k + l.length → I m s → Safe (f s x) (I (m + 1))) :
    Safe (l.foldlM f s) (I (k + l.length)) := by
  induction l generalizing s k with
  | nil => exact hs
  | cons x l ih =>
    rw [List.foldlM_cons]
    refine (h k s x (by simp) (by simp) hs).bind fun v hv => ?_
    have := ih (k + 1) hv (fun m s y hy hm => h m s y (by simp [hy]) (by simp; omega))
    simpa [Nat.add_assoc, Nat.add_comm 1] using this

theorem Safe.noOob {β : Type} {x : Except PyErr β} {P : β → Prop} (h : Safe x P) (a : String) (i : Int) :
    x ≠ .error (.outOfBounds a i) := by
  intro e; subst e; exact h a i rfl

theorem safe_rd {b : Buf α} {i : Int} (h0 : 0 ≤ i) (h1 : i < b.len) (chk : Bool) (name : String) :
    Safe (rd chk name b i) (fun v => v = b.mem i) := by
  simp [rd, Buf.has, h0, h1, Safe]

theorem safe_set {b : Buf α} {i : Int} (h0 : 0 ≤ i) (h1 : i < b.len) (chk : Bool) (name : String) (v : α) :
    Safe (b.set chk name i v) (fun c => c = ⟨b.len, fun j => if j = i then v else b.mem j⟩) := by
  simp [Buf.set, Buf.has, h0, h1, Safe]

theorem safe_push {acc : List (α × α)} {p : α × α} (h : acc.length < workSize) (chk : Bool) :
    Safe (push chk acc p) (fun r => r = acc ++ [p]) := by
  simp [push, Nat.not_le.mpr h, Safe]

theorem mem_rangeI {a b j : Int} : j ∈ rangeI a b ↔ a ≤ j ∧ j < b := by
  simp only [rangeI, List.mem_map, List.mem_range]
  constructor
  · rintro ⟨k, hk, rfl⟩; simp only [Int.ofNat_eq_natCast]; omega
  · rintro ⟨h1, h2⟩; exact ⟨(j - a).toNat, by omega, by simp only [Int.ofNat_eq_natCast]; omega⟩

theorem length_rangeI (a b : Int) : (rangeI a b).length = (b - a).toNat := by simp [rangeI]

/-! ## Simulation: a checked run that stays in bounds is what the unchecked code does -/

/-- Equal results, unless the first leaves its arrays. -/
def Sim {β : Type} (x y : Except PyErr β) : Prop := (∃ a i, x = .error (.outOfBounds a i)) ∨ x = y

theorem Sim.refl {β : Type} (x : Except PyErr β) : Sim x x := .inr rfl

theorem Sim.bind {β γ : Type} {x y : Except PyErr β} {f g : β → Except PyErr γ} (h : Sim x y)
    (hf : ∀ v, Sim (f v) (g v)) : Sim (x >>= f) (y >>= g) := by
  rcases h with ⟨a, i, rfl⟩ | rfl
  · exact .inl ⟨a, i, rfl⟩
  · cases x with
    | error e => exact .inr rfl
    | ok v => exact hf v

theorem Sim.mapM {β γ : Type} {f g : β → Except PyErr γ} (l : List β) (h : ∀ x, Sim (f x) (g x)) :
    Sim (l.mapM f) (l.mapM g) := by
  induction l with
  | nil => exact .refl _
  | cons x l ih =>
    rw [List.mapM_cons, List.mapM_cons]
    exact (h x).bind fun v => ih.bind fun r => .refl _

theorem Sim.foldlM {β σ : Type} {f g : σ → β → Except PyErr σ} (l : List β) (s : σ) (h : ∀ s x, Sim (f s x) (g s x)) :
    Sim (l.foldlM f s) (l.foldlM g s) := by
  induction l generalizing s with
  | nil => exact .refl _
  | cons x l ih =>
    rw [List.foldlM_cons, List.foldlM_cons]
    exact (h s x).bind fun v => ih v

theorem Sim.ite {β : Type} {c : Prop} [Decidable c] {x y x' y' : Except PyErr β} (h : Sim x y) (h' : Sim x' y') :
    Sim (if c then x else x') (if c then y else y') := by split <;> assumption

/-- The same array: equal length and equal contents (memory outside may differ). -/
def SameArr (b b' : Buf α) : Prop := b.len = b'.len ∧ ∀ i : Int, 0 ≤ i → i < b.len → b.mem i = b'.mem i

theorem sim_rd {b b' : Buf α} (h : SameArr b b') (name : String) (i : Int) :
    Sim (rd true name b i) (rd false name b' i) := by
  unfold rd
  by_cases hb : b.has i
  · right
    have := h.2 i (by simp [Buf.has] at hb; exact hb.1) (by simp [Buf.has] at hb; exact hb.2)
    simp [hb, this]
  · left; simp [hb]

theorem sim_rd_self (b : Buf α) (name : String) (i : Int) : Sim (rd true name b i) (rd false name b i) :=
  sim_rd ⟨rfl, fun _ _ _ => rfl⟩ name i

theorem sim_set (b : Buf α) (name : String) (i : Int) (v : α) : Sim (b.set true name i v) (b.set false name i v) := by
  unfold Buf.set
  by_cases hb : b.has i
  · right; simp [hb]
  · left; simp [hb]

theorem sim_push (acc : List (α × α)) (p : α × α) : Sim (push true acc p) (push false acc p) := by
  unfold push
  by_cases hb : workSize ≤ acc.length
  · left; simp [hb]
  · right; simp [hb]

/-- Calls with equal arguments: the same arrays and scalars.  Memory outside the arrays may differ, and so may the
uninitialised `nadp`. -/
structure SameArgs (R R' : Ray α) : Prop where
  n : R.n = R'.n
  dp : SameArr R.dp R'.dp
  dz : SameArr R.dz R'.dz
  rng : SameArr R.rng R'.rng
  thsd : SameArr R.thsd R'.thsd
  coef : SameArr R.coef R'.coef
  nf : R.nf = R'.nf
  bad : R.bad = R'.bad
  order : R.order = R'.order
  gain : R.gain = R'.gain
  stdGate : R.stdGate = R'.stdGate

variable {R R' : Ray α}

theorem SameArgs.half (h : SameArgs R R') : R.half = R'.half := by simp [Ray.half, h.order]
theorem SameArgs.halfStd (h : SameArgs R R') : R.halfStd = R'.halfStd := by simp [Ray.halfStd, h.stdGate]

theorem sim_sdAt (h : SameArgs R R') (D : Dialect α) (i : Int) : Sim (sdAt D true R i) (sdAt D false R' i) := by
  unfold sdAt
  rw [h.halfStd, h.n, h.bad]
  refine .ite (.bind (.mapM _ fun j => sim_rd h.dp _ _) fun xs => .refl _) (.refl _)

theorem sim_good (h : SameArgs R R') (sd z : Buf α) (j : Int) : Sim (good true R sd z j) (good false R' sd z j) := by
  unfold good
  rw [h.bad]
  refine (sim_rd_self _ _ _).bind fun s => (sim_rd h.thsd _ _).bind fun t => .ite ?_ (.refl _)
  exact (sim_rd_self _ _ _).bind fun v => .refl _

theorem sim_collect (h : SameArgs R R') (sd z : Buf α) (js : List Int) :
    Sim (collect true R sd z js) (collect false R' sd z js) := by
  unfold collect
  refine .foldlM _ _ fun acc j => (sim_good h sd z j).bind fun g => .ite ?_ (.refl _)
  exact (sim_rd_self _ _ _).bind fun v => (sim_rd h.rng _ _).bind fun r => sim_push _ _

theorem sim_fill (h : SameArgs R R') (ab : α × α) (js : List Int) (z : Buf α) :
    Sim (fill D true R ab js z) (fill D false R' ab js z) := by
  unfold fill
  rw [h.bad]
  refine .foldlM _ _ fun z j => (sim_rd_self _ _ _).bind fun v => .ite ?_ (.refl _)
  exact (sim_rd h.rng _ _).bind fun r => sim_set _ _ _ _

theorem sim_firSum (h : SameArgs R R') (D : Dialect α) (z : Buf α) (lo : Int) (js : List Int) :
    Sim (firSum D true R z lo js) (firSum D false R' z lo js) := by
  unfold firSum
  exact .foldlM _ _ fun A j => (sim_rd h.coef _ _).bind fun c => (sim_rd_self _ _ _).bind fun v => .refl _

theorem sim_firGate (h : SameArgs R R') (D : Dialect α) (sd : Buf α) (yz : Buf α × Buf α) (i : Int) :
    Sim (firGate D true R sd yz i) (firGate D false R' sd yz i) := by
  unfold firGate
  dsimp only
  rw [h.half, h.order, h.bad, h.gain]
  refine (sim_good h sd _ i).bind fun g => .ite ?_ (.refl _)
  refine (sim_collect h sd _ _).bind fun pts => .ite ?_ (.refl _)
  refine Sim.bind (.ite ((Sim.refl _).bind fun ab => sim_fill h _ _ _) (.refl _)) fun z => ?_
  exact (sim_firSum h D _ _ _).bind fun A => (sim_set _ _ _ _).bind fun y => .refl _

theorem sim_firPasses (h : SameArgs R R') (D : Dialect α) (sd : Buf α) (k : Nat) (yz : Buf α × Buf α) :
    Sim (firPasses D true R sd k yz) (firPasses D false R' sd k yz) := by
  induction k generalizing yz with
  | zero => exact .refl _
  | succ k ih =>
    unfold firPasses firPass
    rw [h.half, h.n]
    refine Sim.bind (Sim.bind (.foldlM _ _ fun s i => sim_firGate h D sd s i) fun r => .refl _) fun yz => ih yz

theorem sim_kdpCollect (h : SameArgs R R') (dpLin : Buf α) (js : List Int) :
    Sim (kdpCollect true R dpLin js) (kdpCollect false R' dpLin js) := by
  unfold kdpCollect
  rw [h.bad]
  refine .foldlM _ _ fun acc j => (sim_rd_self _ _ _).bind fun v => .ite ?_ (.refl _)
  exact (sim_rd h.rng _ _).bind fun r => sim_push _ _

theorem nadpOf_same (h : SameArgs R R') (d : α) (m : Int) : nadpOf R d m = nadpOf R' d m := by
  simp [nadpOf, h.half]

theorem sim_kdpGate (h : SameArgs R R') (D : Dialect α) (dpLin : Buf α) (m i : Int) :
    Sim (kdpGate D true R dpLin m i) (kdpGate D false R' dpLin m i) := by
  unfold kdpGate
  simp only [nadpOf_same h, h.n, h.bad]
  refine (sim_rd h.dz _ _).bind fun d => .ite ?_ (.refl _)
  refine Sim.bind (.ite (sim_kdpCollect h _ _) (.refl _)) fun pts => .ite ?_ (.refl _)
  exact .refl _

/-- The `nadp` carried between gates does not matter when every reflectivity falls into one of the three classes. -/
def Classified (R : Ray α) : Prop :=
  ∀ i : Int, 0 ≤ i → i < R.n → (R.dz.mem i ==. R.bad) = true ∨ (R.dz.mem i >=. 45.0) = true ∨
    ((R.dz.mem i >=. 35.0) && (R.dz.mem i <. 45.0)) = true ∨ (R.dz.mem i <. 35.0) = true

theorem nadpOf_classified (R : Ray α) (d : α) (h : (d >=. 45.0) = true ∨
    ((d >=. 35.0) && (d <. 45.0)) = true ∨ (d <. 35.0) = true) (m m' : Int) : nadpOf R d m = nadpOf R d m' := by
  unfold nadpOf
  rcases h with h | h | h <;> simp [h]

theorem kdpGate_classified (R : Ray α) (D : Dialect α) (chk : Bool) (z : Buf α) {i : Int}
    (h : (R.dz.mem i ==. R.bad) = true ∨ (R.dz.mem i >=. 45.0) = true ∨
    ((R.dz.mem i >=. 35.0) && (R.dz.mem i <. 45.0)) = true ∨ (R.dz.mem i <. 35.0) = true) (m m' : Int) :
    (kdpGate D chk R z m i).map Prod.fst = (kdpGate D chk R z m' i).map Prod.fst := by
  unfold kdpGate rd
  split
  · rfl
  · rename_i hb
    show Except.map _ (if _ then _ else _) = Except.map _ (if _ then _ else _)
    by_cases hd : (R.dz.mem i ==. R.bad) = true
    · simp [PyFloat.ne, hd, Except.map]
    · rw [nadpOf_classified R (R.dz.mem i) (h.resolve_left hd) m m']
      simp [PyFloat.ne, hd]

theorem kdpLoop_classified (R : Ray α) (D : Dialect α) (chk : Bool) (z : Buf α) (is : List Int)
    (h : ∀ i ∈ is, (R.dz.mem i ==. R.bad) = true ∨ (R.dz.mem i >=. 45.0) = true ∨
    ((R.dz.mem i >=. 35.0) && (R.dz.mem i <. 45.0)) = true ∨ (R.dz.mem i <. 35.0) = true) (m m' : Int) :
    kdpLoop D chk R z is m = kdpLoop D chk R z is m' := by
  induction is generalizing m m' with
  | nil => rfl
  | cons i is ih =>
    have hg := kdpGate_classified R D chk z (h i (by simp)) m m'
    have ih := fun m m' => ih (fun j hj => h j (by simp [hj])) m m'
    unfold kdpLoop
    cases h1 : kdpGate D chk R z m i with
    | error e =>
      cases h2 : kdpGate D chk R z m' i with
      | error e' => rw [h1, h2] at hg; simp only [Except.map, Except.error.injEq] at hg; rw [hg]
      | ok p => rw [h1, h2] at hg; simp [Except.map] at hg
    | ok p =>
      cases h2 : kdpGate D chk R z m' i with
      | error e' => rw [h1, h2] at hg; simp [Except.map] at hg
      | ok p' =>
        rw [h1, h2] at hg
        simp only [Except.map, Except.ok.injEq] at hg
        show (kdpLoop D chk R z is p.2 >>= fun ks => Except.ok (p.1 :: ks)) =
          (kdpLoop D chk R z is p'.2 >>= fun ks => Except.ok (p'.1 :: ks))
        rw [ih p.2 p'.2, hg]

theorem sim_kdpLoop (h : SameArgs R R') (D : Dialect α) (z : Buf α) (is : List Int) (m : Int) :
    Sim (kdpLoop D true R z is m) (kdpLoop D false R' z is m) := by
  induction is generalizing m with
  | nil => exact .refl _
  | cons i is ih =>
    unfold kdpLoop
    refine (sim_kdpGate h D z m i).bind fun p => (ih p.2).bind fun ks => .refl _

/-- A call that stays inside its arrays returns the same whatever the memory around them holds. -/
theorem sim_calc (h : SameArgs R R') (hn : R.nadp0 = R'.nadp0 ∨ Classified R) (D : Dialect α) :
    Sim (calcKdpRayFir D true R) (calcKdpRayFir D false R') := by
  unfold calcKdpRayFir
  rw [← h.n, ← h.bad, ← h.nf]
  refine (Sim.mapM _ fun j => sim_rd h.dp _ _).bind fun z => (Sim.mapM _ fun i => sim_sdAt h D i).bind fun sd => ?_
  refine (sim_firPasses h D _ _ _).bind fun yz => ?_
  refine Sim.bind ?_ fun kd => .refl _
  rcases hn with hn | hn
  · rw [hn]; exact sim_kdpLoop h D _ _ _
  · rw [kdpLoop_classified R D true yz.2 (gates R.n) (fun i hi => by
      have := mem_rangeI.mp hi
      exact hn i this.1 (by exact_mod_cast this.2)) R.nadp0 R'.nadp0]
    exact sim_kdpLoop h D _ _ _

/-! ## Bounds -/

/-- The buffers are as large as the kernel assumes. -/
structure Fits (D : Dialect α) (R : Ray α) : Prop where
  dp : R.n ≤ R.dp.len
  dz : R.n ≤ R.dz.len
  rng : R.n ≤ R.rng.len
  thsd : R.n ≤ R.thsd.len
  /-- the filter reads `2 * half + 1` coefficients from index `coefOff` on -/
  coef : 0 ≤ D.coefOff ∧ (2 * R.half + 1 : Int) + D.coefOff ≤ R.coef.len
  /-- the filter window fits in the work buffers -/
  firWork : 2 * R.half + 1 ≤ workSize ∨ R.n ≤ workSize
  /-- so does the widest KDP window, also for the initial `nadp` -/
  kdpWork : R.n ≤ workSize ∨ (2 * (3 * R.half / 2) + D.winEnd ≤ workSize ∧ 2 * (R.nadp0 / 2) + D.winEnd ≤ workSize)
  winEnd : 0 ≤ D.winEnd ∧ D.winEnd ≤ 1

theorem safe_sdAt {D : Dialect α} (h : Fits D R) (i : Int) : Safe (sdAt D true R i) (fun _ => True) := by
  unfold sdAt
  split
  · rename_i hc
    refine Safe.bind (Safe.mapM (P := fun _ => True) fun j hj => ?_) fun xs _ => ?_
    · have hj := mem_rangeI.mp hj
      have := h.dp
      exact (safe_rd (by omega) (by omega) _ _).mono fun _ _ => trivial
    · dsimp only
      split
      · split
        · intro a i; simp
        · trivial
      · trivial
  · trivial

theorem ofList_len (n : Nat) (l : List α) : (ofList n l).len = n := rfl

theorem safe_good {D : Dialect α} (h : Fits D R) {sd z : Buf α} (hs : sd.len = R.n) (hz : z.len = R.n) {j : Int}
    (h0 : 0 ≤ j) (h1 : j < R.n) : Safe (good true R sd z j) (fun _ => True) := by
  have ht := h.thsd
  unfold good
  refine (safe_rd h0 (by omega) _ _).bind fun s _ => (safe_rd h0 (by omega) _ _).bind fun t _ => ?_
  split
  · exact (safe_rd h0 (by omega) _ _).bind fun v _ => trivial
  · trivial

theorem safe_collect {D : Dialect α} (h : Fits D R) {sd z : Buf α} (hs : sd.len = R.n) (hz : z.len = R.n)
    {lo hi : Int} (h0 : 0 ≤ lo) (h1 : hi ≤ R.n) (hw : hi - lo ≤ workSize) :
    Safe (collect true R sd z (rangeI lo hi)) (fun _ => True) := by
  have hr := h.rng
  unfold collect
  refine (Safe.foldlM_lt (I := fun k acc => acc.length ≤ k) 0 (by simp) fun k s j hj hk hI => ?_).mono fun _ _ => trivial
  have hj := mem_rangeI.mp hj
  rw [length_rangeI] at hk
  refine (safe_good h hs hz (j := j) (by omega) (by omega)).bind fun g _ => ?_
  split
  · refine (safe_rd (by omega) (by omega) _ _).bind fun v _ => (safe_rd (by omega) (by omega) _ _).bind fun r _ => ?_
    refine (safe_push (by omega) _).mono fun r hr => ?_
    subst hr; simp; omega
  · show s.length ≤ k + 1; omega

theorem safe_fill {D : Dialect α} (h : Fits D R) (ab : α × α) {z : Buf α} (hz : z.len = R.n)
    {lo hi : Int} (h0 : 0 ≤ lo) (h1 : hi ≤ R.n) :
    Safe (fill D true R ab (rangeI lo hi) z) (fun z' => z'.len = R.n) := by
  have hr := h.rng
  unfold fill
  refine (Safe.foldlM (I := fun _ (z : Buf α) => z.len = R.n) 0 hz fun k z j hj hI => ?_)
  have hj := mem_rangeI.mp hj
  refine (safe_rd (by omega) (by omega) _ _).bind fun v _ => ?_
  split
  · refine (safe_rd (by omega) (by omega) _ _).bind fun r _ => ?_
    refine (safe_set (by omega) (by omega) _ _ _).mono fun c hc => ?_
    subst hc; exact hI
  · exact hI

theorem safe_firSum {D : Dialect α} (h : Fits D R) {z : Buf α} (hz : z.len = R.n)
    {lo hi : Int} (h0 : 0 ≤ lo) (h1 : hi ≤ R.n) (hw : hi - lo ≤ 2 * R.half + 1) :
    Safe (firSum D true R z lo (rangeI lo hi)) (fun _ => True) := by
  have hc := h.coef
  unfold firSum
  refine (Safe.foldlM (I := fun _ _ => True) 0 trivial fun k s j hj hI => ?_)
  have hj := mem_rangeI.mp hj
  refine (safe_rd (by omega) (by omega) _ _).bind fun c _ => (safe_rd (by omega) (by omega) _ _).bind fun v _ => ?_
  trivial

theorem safe_lse (D : Dialect α) (bad : α) (pts : List (α × α)) : Safe (lse D bad pts) (fun _ => True) := by
  unfold lse
  dsimp only
  split
  · intro a i; simp
  · trivial

theorem safe_firGate {D : Dialect α} (h : Fits D R) {sd : Buf α} (hs : sd.len = R.n) {yz : Buf α × Buf α}
    (hy : yz.1.len = R.n ∧ yz.2.len = R.n) {i : Int} (h0 : R.half ≤ i) (h1 : i < (R.n : Int) - R.half) :
    Safe (firGate D true R sd yz i) (fun r => r.1.len = R.n ∧ r.2.len = R.n) := by
  have hf := h.firWork
  unfold firGate
  refine (safe_good h hs hy.2 (by omega) (by omega)).bind fun g _ => ?_
  split
  · dsimp only
    refine (safe_collect h hs hy.2 (by omega) (by omega) (by omega)).bind fun pts _ => ?_
    split
    · refine Safe.bind (P := fun (z : Buf α) => z.len = R.n) ?_ fun z hz => ?_
      · split
        · exact (safe_lse D _ _).bind fun ab _ => safe_fill h ab hy.2 (by omega) (by omega)
        · exact hy.2
      · refine (safe_firSum h hz (by omega) (by omega) (by omega)).bind fun A _ => ?_
        refine (safe_set (by omega) (by omega) _ _ _).bind fun y hy' => ?_
        subst hy'
        exact ⟨hy.1, hz⟩
    · exact hy
  · exact hy

theorem safe_firPasses {D : Dialect α} (h : Fits D R) {sd : Buf α} (hs : sd.len = R.n) (k : Nat) {yz : Buf α × Buf α}
    (hy : yz.1.len = R.n ∧ yz.2.len = R.n) :
    Safe (firPasses D true R sd k yz) (fun r => r.1.len = R.n ∧ r.2.len = R.n) := by
  induction k generalizing yz with
  | zero => exact hy
  | succ k ih =>
    unfold firPasses firPass
    refine Safe.bind (P := fun (r : Buf α × Buf α) => r.1.len = R.n ∧ r.2.len = R.n) ?_ fun r hr => ih hr
    refine Safe.bind (Safe.foldlM (I := fun _ (r : Buf α × Buf α) => r.1.len = R.n ∧ r.2.len = R.n) 0 hy fun k s i hi hI => ?_)
      fun r hr => ⟨hr.1, hr.1⟩
    have hi := mem_rangeI.mp hi
    exact safe_firGate h hs hI hi.1 hi.2

theorem safe_kdpCollect {D : Dialect α} (h : Fits D R) {z : Buf α} (hz : z.len = R.n)
    {lo hi : Int} (h0 : 0 ≤ lo) (h1 : hi ≤ R.n) (hw : hi - lo ≤ workSize) :
    Safe (kdpCollect true R z (rangeI lo hi)) (fun _ => True) := by
  have hr := h.rng
  unfold kdpCollect
  refine (Safe.foldlM_lt (I := fun k acc => acc.length ≤ k) 0 (by simp) fun k s j hj hk hI => ?_).mono fun _ _ => trivial
  have hj := mem_rangeI.mp hj
  rw [length_rangeI] at hk
  refine (safe_rd (by omega) (by omega) _ _).bind fun v _ => ?_
  split
  · refine (safe_rd (by omega) (by omega) _ _).bind fun r _ => ?_
    refine (safe_push (by omega) _).mono fun r hr => ?_
    subst hr; simp; omega
  · show s.length ≤ k + 1; omega

/-- the window sizes `nadp` can take -/
def NadpOk (R : Ray α) (m : Int) : Prop := m = R.nadp0 ∨ (0 ≤ m ∧ m ≤ 3 * R.half)

theorem nadpOf_ok (R : Ray α) (d : α) {m : Int} (h : NadpOk R m) : NadpOk R (nadpOf R d m) := by
  unfold nadpOf NadpOk at *
  dsimp only
  split
  · right; omega
  · split
    · right; omega
    · split
      · right; omega
      · exact h

theorem safe_kdpGate {D : Dialect α} (h : Fits D R) {z : Buf α} (hz : z.len = R.n) {m i : Int} (hm : NadpOk R m)
    (h0 : 0 ≤ i) (h1 : i < R.n) : Safe (kdpGate D true R z m i) (fun p => NadpOk R p.2) := by
  have hd := h.dz
  have hk := h.kdpWork
  have he := h.winEnd
  unfold kdpGate
  refine (safe_rd h0 (by omega) _ _).bind fun d _ => ?_
  split
  · have hm' := nadpOf_ok R d hm
    dsimp only
    generalize nadpOf R d m = m' at *
    refine Safe.bind (P := fun _ => True) ?_ fun pts _ => ?_
    · split
      · rename_i hc
        refine safe_kdpCollect h hz (by omega) (by omega) ?_
        rcases hk with hk | hk
        · omega
        · rcases hm' with rfl | hm'
          · omega
          · have : m' / 2 ≤ (3 * R.half / 2 : Nat) := by omega
            omega
      · trivial
    · split
      · exact (safe_lse D _ _).bind fun ab _ => hm'
      · exact hm'
  · exact hm

theorem safe_kdpLoop {D : Dialect α} (h : Fits D R) {z : Buf α} (hz : z.len = R.n) (is : List Int)
    (hi : ∀ i ∈ is, 0 ≤ i ∧ i < R.n) {m : Int} (hm : NadpOk R m) : Safe (kdpLoop D true R z is m) (fun _ => True) := by
  induction is generalizing m with
  | nil => trivial
  | cons i is ih =>
    unfold kdpLoop
    refine (safe_kdpGate h hz hm (hi i (by simp)).1 (hi i (by simp)).2).bind fun p hp => ?_
    refine (ih (fun j hj => hi j (by simp [hj])) hp).bind fun ks _ => trivial

theorem mem_gates {n : Nat} {i : Int} : i ∈ gates n ↔ 0 ≤ i ∧ i < n := mem_rangeI

theorem safe_calc {D : Dialect α} (h : Fits D R) : Safe (calcKdpRayFir D true R) (fun _ => True) := by
  unfold calcKdpRayFir
  have hd := h.dp
  refine (Safe.mapM (P := fun _ => True) fun j hj => ?_).bind fun z _ => ?_
  · have hj := mem_gates.mp hj
    exact (safe_rd hj.1 (by omega) _ _).mono fun _ _ => trivial
  refine (Safe.mapM (P := fun _ => True) fun i _ => safe_sdAt h i).bind fun sd _ => ?_
  refine (safe_firPasses h (ofList_len _ _) _ ⟨ofList_len _ _, ofList_len _ _⟩).bind fun yz hyz => ?_
  refine (safe_kdpLoop h hyz.2 _ (fun i hi => mem_gates.mp hi) (.inl rfl)).bind fun kd _ => trivial

/-! ## Successful runs -/

theorem bind_ok {β γ : Type} {x : Except PyErr β} {f : β → Except PyErr γ} {r : γ} (h : x >>= f = .ok r) :
    ∃ v, x = .ok v ∧ f v = .ok r := by
  cases x with
  | error e => cases h
  | ok v => exact ⟨v, rfl, h⟩

theorem foldlM_inv {β σ : Type} {f : σ → β → Except PyErr σ} {l : List β} {s r : σ} {I : σ → Prop} (hs : I s)
    (h : ∀ s x r, x ∈ l → I s → f s x = .ok r → I r) (e : l.foldlM f s = .ok r) : I r := by
  induction l generalizing s with
  | nil => cases e; exact hs
  | cons x l ih =>
    rw [List.foldlM_cons] at e
    obtain ⟨v, h1, h2⟩ := bind_ok e
    exact ih (h s x v (by simp) hs h1) (fun s y r hy => h s y r (by simp [hy])) h2

theorem foldlM_all_ok {β σ : Type} {f : σ → β → Except PyErr σ} {l : List β} {s r : σ} (e : l.foldlM f s = .ok r)
    {x : β} (hx : x ∈ l) : ∃ s' r', f s' x = .ok r' := by
  induction l generalizing s with
  | nil => cases hx
  | cons y l ih =>
    rw [List.foldlM_cons] at e
    obtain ⟨v, h1, h2⟩ := bind_ok e
    rcases List.mem_cons.mp hx with rfl | hx
    · exact ⟨s, v, h1⟩
    · exact ih h2 hx

theorem mapM_ok_map {β γ : Type} {f : β → Except PyErr γ} {g : β → γ} {l : List β} (h : ∀ x ∈ l, f x = .ok (g x)) :
    l.mapM f = .ok (l.map g) := by
  induction l with
  | nil => rfl
  | cons x l ih =>
    rw [List.mapM_cons, h x (by simp), ih fun y hy => h y (by simp [hy])]; rfl

theorem rd_ok {b : Buf α} {i : Int} (h0 : 0 ≤ i) (h1 : i < b.len) (chk : Bool) (name : String) :
    rd chk name b i = .ok (b.mem i) := by simp [rd, Buf.has, h0, h1]

theorem ofList_map_gates (n : Nat) (f : Int → α) {i : Int} (h0 : 0 ≤ i) (h1 : i < n) :
    (ofList n ((gates n).map f)).mem i = f i := by
  have hi : i.toNat < n := by omega
  have h2 : (i.toNat : Int) = i := by omega
  simp [ofList, gates, rangeI, h0, hi, h2]


theorem mapM_get {β γ : Type} {f : β → Except PyErr γ} {l : List β} {r : List γ} (h : l.mapM f = .ok r) :
    r.length = l.length ∧ ∀ (i : Nat) (h1 : i < l.length) (h2 : i < r.length), f l[i] = .ok r[i] := by
  induction l generalizing r with
  | nil => cases h; simp
  | cons x l ih =>
    rw [List.mapM_cons] at h
    obtain ⟨v, h1, h⟩ := bind_ok h
    obtain ⟨vs, h2, h⟩ := bind_ok h
    cases h
    have := ih h2
    refine ⟨by simp [this.1], fun i h3 h4 => ?_⟩
    cases i with
    | zero => exact h1
    | succ i => exact this.2 i (by simpa using h3) (by simpa using h4)

theorem kdpLoop_get {D : Dialect α} {chk : Bool} {R : Ray α} {z : Buf α} {is : List Int} {m : Int} {ks : List α}
    (h : kdpLoop D chk R z is m = .ok ks) : ks.length = is.length ∧
      ∀ (i : Nat) (h1 : i < is.length) (h2 : i < ks.length), ∃ m1 m2, kdpGate D chk R z m1 is[i] = .ok (ks[i], m2) := by
  induction is generalizing m ks with
  | nil => cases h; simp
  | cons x is ih =>
    unfold kdpLoop at h
    obtain ⟨p, h1, h⟩ := bind_ok h
    obtain ⟨vs, h2, h⟩ := bind_ok h
    cases h
    have := ih h2
    refine ⟨by simp [this.1], fun i h3 h4 => ?_⟩
    cases i with
    | zero => exact ⟨m, p.2, h1⟩
    | succ i => exact this.2 i (by simpa using h3) (by simpa using h4)

theorem gates_length (n : Nat) : (gates n).length = n := by simp [gates, rangeI]
theorem gates_get (n i : Nat) (h : i < (gates n).length) : (gates n)[i] = (i : Int) := by simp [gates, rangeI]

/-- the parts of a successful call -/
structure Run (D : Dialect α) (chk : Bool) (R : Ray α) (out : RayOut α) (yz : Buf α × Buf α) : Prop where
  sdLen : out.sd.length = R.n
  dpLen : out.dp.length = R.n
  kdLen : out.kd.length = R.n
  sd : ∀ (i : Nat) (h : i < out.sd.length), sdAt D chk R i = .ok out.sd[i]
  z : ∀ i : Nat, i < R.n → rd chk "dp" R.dp i = .ok (R.dp.mem i)
  passes : firPasses D chk R (ofList R.n out.sd) R.nf
    (ofList R.n (List.replicate R.n R.bad), ofList R.n ((gates R.n).map R.dp.mem)) = .ok yz
  dp : ∀ (i : Nat) (h : i < out.dp.length), out.dp[i] = yz.2.mem i
  kd : ∀ (i : Nat) (h : i < out.kd.length), ∃ m1 m2, kdpGate D chk R yz.2 m1 i = .ok (out.kd[i], m2)

theorem rd_val {chk : Bool} {name : String} {b : Buf α} {i : Int} {v : α} (h : rd chk name b i = .ok v) : v = b.mem i := by
  unfold rd at h; split at h
  · cases h
  · cases h; rfl

theorem calc_run {D : Dialect α} {chk : Bool} {R : Ray α} {out : RayOut α} (e : calcKdpRayFir D chk R = .ok out) :
    ∃ yz, Run D chk R out yz := by
  unfold calcKdpRayFir at e
  obtain ⟨z, hz, e⟩ := bind_ok e
  obtain ⟨sd, hsd, e⟩ := bind_ok e
  obtain ⟨yz, h1, e⟩ := bind_ok e
  obtain ⟨kd, hkd, e⟩ := bind_ok e
  cases e
  have hz' := mapM_get hz
  have hsd' := mapM_get hsd
  have hkd' := kdpLoop_get hkd
  simp only [gates_length, gates_get] at hz' hsd' hkd'
  have hz2 : z = (gates R.n).map R.dp.mem := by
    apply List.ext_getElem
    · simp [gates_length, hz'.1]
    · intro i h1 h2
      rw [List.getElem_map, gates_get]
      exact rd_val (hz'.2 i (by omega) h1)
  refine ⟨yz, hsd'.1, by simp [gates_length], hkd'.1, fun i h => hsd'.2 i (by simpa [hsd'.1] using h) h, fun i h => ?_,
    hz2 ▸ h1, fun i h => ?_, fun i h => hkd'.2 i (by simpa [hkd'.1] using h) h⟩
  · have h2 := hz'.2 i h (by omega)
    rw [h2, rd_val h2]
  · simp only [List.getElem_map, gates_get]

end Csu.Kdp
