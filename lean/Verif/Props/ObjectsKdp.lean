import Verif.Lemmas.HeapKdp
import Verif.Props.Objects2
import Verif.QFloat
/-!
# C150: `calc_kdp_bringi` and the caller's arrays

The call only adds objects to the heap: the caller's arrays (including an array of thresholds, which the kernel reads without a copy) keep their contents,
whatever is raised; what is returned are three new, different arrays, with the values of the value model of `Model/KdpApi.lean`.
-/
namespace Csu.Heap
open Csu PyFloat Kdp
variable {α : Type} [PyFloat α]

/-- the data argument as the value model sees it -/
def DataIs (h : Heap α) : DataH α → Data α → Prop
  | .one r n b, .one buf => ∃ dt xs, h[r]? = some (.flt dt xs) ∧ xs.length = n ∧ buf = (View.mk r 0 n b).buf xs
  | .two r n w b, .two rays => ∃ dt xs, h[r]? = some (.flt dt xs) ∧ xs.length = n * w ∧ rays = (List.range n).map (fun i => (rowView r w b i).buf xs)
  | .other k, .other k' => k = k'
  | _, _ => False

/-- an optional data argument -/
def OptDataIs (h : Heap α) : Option (DataH α) → Option (Data α) → Prop
  | none, none => True
  | some d, some v => DataIs h d v
  | _, _ => False

/-- the thresholds as the value model sees them -/
def ThsdIs (h : Heap α) : ThsdH α → Thsd α → Prop
  | .scalar x, .scalar y => x = y
  | .list l, .list l' => l = l'
  | .one f r n b, .one f' buf => f = f' ∧ ∃ dt xs, h[r]? = some (.flt dt xs) ∧ xs.length = n ∧ buf = (View.mk r 0 n b).buf xs
  | .two f r n w b, .two f' rays => f = f' ∧ ∃ dt xs, h[r]? = some (.flt dt xs) ∧ xs.length = n * w ∧
      rays = (List.range n).map (fun i => (rowView r w b i).buf xs)
  | _, _ => False

/-- three new, different arrays with these contents -/
def NewTriple (h g : Heap α) (a b c : Ref) (xs ys zs : List α) : Prop :=
  IsNew h a ∧ IsNew h b ∧ IsNew h c ∧ a ≠ b ∧ a ≠ c ∧ b ≠ c ∧ g[a]? = some (.flt .float xs) ∧ g[b]? = some (.flt .float ys) ∧
    g[c]? = some (.flt .float zs)

/-- what is returned, as objects: for 2-D data the rows of the results one after the other -/
def RetIs (h g : Heap α) : Ret2H → Ret2 α → Prop
  | .none, .none => True
  | .noneTriple, .noneTriple => True
  | .one a b c, .one out => NewTriple h g a b c out.kd out.dp out.sd
  | .two n w a b c, .two outs => outs.length = n ∧ (∀ o ∈ outs, o.kd.length = w ∧ o.dp.length = w ∧ o.sd.length = w) ∧
      NewTriple h g a b c (outs.map (·.kd)).flatten (outs.map (·.dp)).flatten (outs.map (·.sd)).flatten
  | _, _ => False

theorem copy_buf (r r' : Ref) (off n : Nat) (b : Int → α) (xs : List α) :
    toF32 ((View.mk r off n b).buf xs) = (View.mk r' off n (fun i => f32 (b i))).buf (xs.map f32) := by
  unfold toF32 View.buf
  congr 1
  funext i
  simp only [List.length_map]
  split
  · rename_i hc
    have : ((off : Int) + i).toNat < xs.length := by omega
    simp [List.getD_eq_getElem?_getD, this]
  · rfl

theorem coef_buf (r : Ref) (J : Junk α) (D : Dialect α) (l : List α) : coefBuf J (l.map D.w) = (View.mk r 0 l.length J.after).buf (l.map D.w) := by
  unfold coefBuf View.buf
  simp

theorem const_buf (r : Ref) (off n m : Nat) (x : α) : (⟨n, fun _ => x⟩ : Buf α) = (View.mk r off n (fun _ => x)).buf (List.replicate m x) := by
  unfold View.buf
  congr 1
  funext i
  split
  · rename_i hc
    have : ((off : Int) + i).toNat < m := by simp at hc; omega
    simp [List.getD_eq_getElem?_getD, this]
  · rfl

/-- a value model that ends with the call -/
theorem Sim.tail {β γ δ : Type} {h0 g : Heap α} {p : HM α β} {f : β → HM α δ} {x : Except PyErr γ} {R : Heap α → β → γ → Prop} {S : Heap α → δ → γ → Prop}
    (a : Sim h0 p g x R) (b : ∀ w v l, R (h0 ++ l) w v → Sim h0 (f w) (h0 ++ l) (.ok v) S) : Sim h0 (p >>= f) g x S := by
  have e : x = (x >>= Except.ok) := by cases x <;> rfl
  rw [e]
  exact Sim.bind a (fun w v l _ r => b w v l r)

theorem Sim.copy32 {δ ε : Type} {h0 l : Heap α} {r : Ref} {dt : DType} {xs : List α} {f : Ref → HM α δ} {x : Except PyErr ε} {S : Heap α → δ → ε → Prop}
    (e : h0[r]? = some (.flt dt xs)) (b : Sim h0 (f (h0.length + l.length)) (h0 ++ (l ++ [.flt .float (xs.map f32)])) x S) :
    Sim h0 (copy32 r >>= f) (h0 ++ l) x S := by
  refine Sim.of_eq ?_ b
  show HM.bind (HM.bind _ _) f _ = _
  simp only [HM.bind, show Heap.getF r (h0 ++ l) = _ from runs_getF (get_old e)]
  simp [newF, new, Heap.new]

section
variable {h : Heap α} {D : Dialect α} {J : Junk α} {fir : Fir α} {o : KdpOptsH α} {o' : KdpOpts α}

/-- the kernel call of one ray -/
theorem call_shows {g : Heap α} (e1 : o.nfilter = o'.nfilter) (e2 : o.bad = o'.bad) (e3 : o.stdGate = o'.stdGate) {coef p z r : Ref}
    {p' z' r' : Ref} {xs zs rs : List α} {op np oz nz or nr : Nat} {bp bz br : Int → α} (ray : Nat) {t : View α} {tb : Buf α}
    (hc : g[coef]? = some (.flt .float (fir.coef.map D.w))) (hp : g[p]? = some (.flt .float (xs.map f32)))
    (hz : g[z]? = some (.flt .float (zs.map f32))) (hr : g[r]? = some (.flt .float (rs.map f32))) (ht : Reads g t tb) :
    Shows g (rayCallH fir o J coef ray ⟨p, op, np, fun i => f32 (bp i)⟩ ⟨z, oz, nz, fun i => f32 (bz i)⟩ ⟨r, or, nr, fun i => f32 (br i)⟩ t)
      (rayCall D J fir o' ray ((View.mk p' op np bp).buf xs) ((View.mk z' oz nz bz).buf zs) ((View.mk r' or nr br).buf rs) tb) := by
  refine ⟨?_, ?_, ?_, ?_, ht, ?_⟩
  · unfold rayCallH rayCall RayH.ray
    simp only [e1, e2, e3]
    rfl
  · exact ⟨_, _, hp, copy_buf _ _ _ _ _ _⟩
  · exact ⟨_, _, hz, copy_buf _ _ _ _ _ _⟩
  · exact ⟨_, _, hr, copy_buf _ _ _ _ _ _⟩
  · exact ⟨_, _, hc, coef_buf _ _ _ _⟩

/-- the new array of thresholds, if there is one -/
def newThsd (t : ThsdH α) (size : Nat) : List (Cell α) :=
  match t with
  | .scalar x => [.flt .float (List.replicate size (f32 x))]
  | _ => []

/-- its reference -/
def newRef (t : ThsdH α) (r : Ref) : Option Ref :=
  match t with
  | .scalar _ => some r
  | _ => none

theorem thsdArray_sim {δ ε : Type} {h0 l : Heap α} (t : ThsdH α) (size : Nat) {f : Option Ref → HM α δ} {x : Except PyErr ε} {S : Heap α → δ → ε → Prop}
    (b : Sim h0 (f (newRef t (h0.length + l.length))) (h0 ++ (l ++ newThsd t size)) x S) :
    Sim h0 (thsdArray t size >>= f) (h0 ++ l) x S := by
  cases t with
  | scalar y =>
    refine Sim.of_eq ?_ b
    simp only [thsdArray]
    show HM.bind (HM.bind _ _) f _ = _
    simp [HM.bind, newF, new, newThsd]
    rfl
  | list k =>
    have b : Sim h0 (f none) (h0 ++ (l ++ [])) x S := b
    rw [List.append_nil] at b; exact b
  | one _ _ _ _ =>
    have b : Sim h0 (f none) (h0 ++ (l ++ [])) x S := b
    rw [List.append_nil] at b; exact b
  | two _ _ _ _ _ =>
    have b : Sim h0 (f none) (h0 ++ (l ++ [])) x S := b
    rw [List.append_nil] at b; exact b

theorem thsd1_sim {t : ThsdH α} {t' : Thsd α} (ht : ThsdIs h t t') (l l' : Heap α) (n : Nat) (dp : Buf α) (hn : dp.len = n) :
    Sim h (thsd1H t (newRef t (h.length + l.length)) n) (h ++ (l ++ newThsd t n ++ l')) (thsd1 t' dp)
      (fun g v b => g = h ++ (l ++ newThsd t n ++ l') ∧ Reads g v b) := by
  cases t with
  | scalar x =>
    cases t' with
    | scalar y =>
      cases ht
      refine Sim.pure ⟨rfl, .float, List.replicate n (f32 x), ?_, ?_⟩
      · show (h ++ _)[h.length + l.length]? = _
        simp [newThsd]
      · rw [hn]; exact const_buf _ _ _ _ _
    | list _ => exact ht.elim
    | one _ _ => exact ht.elim
    | two _ _ => exact ht.elim
  | list a =>
    cases t' with
    | list b => exact Sim.raise
    | scalar _ => exact ht.elim
    | one _ _ => exact ht.elim
    | two _ _ => exact ht.elim
  | one f r m b =>
    cases t' with
    | one f' buf =>
      obtain ⟨rfl, dt, xs, e, hl, rfl⟩ := ht
      simp only [thsd1H, thsd1, thsdView, thsdBuf]
      refine Sim.ite (fun _ => Sim.pure ⟨rfl, dt, xs, get_old e, rfl⟩) (fun _ => Sim.raise)
    | scalar _ => exact ht.elim
    | list _ => exact ht.elim
    | two _ _ => exact ht.elim
  | two f r m w b =>
    cases t' with
    | two f' rows => exact Sim.raise
    | scalar _ => exact ht.elim
    | list _ => exact ht.elim
    | one _ _ => exact ht.elim

theorem thsd2_sim {t : ThsdH α} {t' : Thsd α} (ht : ThsdIs h t t') (l l' : Heap α) (n w ray : Nat) (dp : Buf α) (hn : dp.len = w) :
    Sim h (thsd2H t (newRef t (h.length + l.length)) w ray) (h ++ (l ++ newThsd t (n * w) ++ l')) (thsd2 t' dp ray)
      (fun g v b => g = h ++ (l ++ newThsd t (n * w) ++ l') ∧ Reads g v b) := by
  cases t with
  | scalar x =>
    cases t' with
    | scalar y =>
      cases ht
      refine Sim.pure ⟨rfl, .float, List.replicate (n * w) (f32 x), ?_, ?_⟩
      · show (h ++ _)[h.length + l.length]? = _
        simp [newThsd]
      · rw [hn]; exact const_buf _ _ _ _ _
    | list _ => exact ht.elim
    | one _ _ => exact ht.elim
    | two _ _ => exact ht.elim
  | list a =>
    cases t' with
    | list b => cases ht; exact Sim.ite (fun _ => Sim.raise) (fun _ => Sim.raise)
    | scalar _ => exact ht.elim
    | one _ _ => exact ht.elim
    | two _ _ => exact ht.elim
  | one f r m b =>
    cases t' with
    | one f' buf =>
      obtain ⟨rfl, dt, xs, e, hl, rfl⟩ := ht
      exact Sim.ite (fun _ => Sim.raise) (fun _ => Sim.raise)
    | scalar _ => exact ht.elim
    | list _ => exact ht.elim
    | two _ _ => exact ht.elim
  | two f r m w' b =>
    cases t' with
    | two f' rows =>
      obtain ⟨rfl, dt, xs, e, hl, rfl⟩ := ht
      simp only [thsd2H, thsd2]
      by_cases hc : ray < m
      · rw [if_pos hc, List.getElem?_map, List.getElem?_range hc]
        simp only [Option.map_some, thsdView, thsdBuf]
        exact Sim.ite (fun _ => Sim.pure ⟨rfl, dt, xs, get_old e, rfl⟩) (fun _ => Sim.raise)
      · rw [if_neg hc, List.getElem?_eq_none (by simp; omega)]
        exact Sim.raise
    | scalar _ => exact ht.elim
    | list _ => exact ht.elim
    | one _ _ => exact ht.elim

theorem triple_of {h l0 : Heap α} {Y Z K P S : List α} :
    NewTriple h (h ++ l0 ++ st Y Z K P S) ((h ++ l0).length + 2) ((h ++ l0).length + 3) ((h ++ l0).length + 4) K P S := by
  have hn : ∀ k, IsNew h ((h ++ l0).length + k) := by
    intro k
    exact List.getElem?_eq_none (by simp only [List.length_append]; omega)
  refine ⟨hn _, hn _, hn _, ?_, ?_, ?_, get_new (by rfl), get_new (by rfl), get_new (by rfl)⟩ <;> simp

theorem kdp_one (e1 : o.nfilter = o'.nfilter) (e2 : o.bad = o'.bad) (e3 : o.stdGate = o'.stdGate) (et : ThsdIs h o.thsd o'.thsd)
    {p z r : Ref} {n nz nr : Nat} {bp bz br : Int → α} {dp dz rng : Buf α} (hp : DataIs h (.one p n bp) (.one dp)) (hz : DataIs h (.one z nz bz) (.one dz))
    (hr : DataIs h (.one r nr br) (.one rng)) :
    Sim h (kdpWithFirH D J (.ok (some fir)) (some (.one p n bp)) (some (.one z nz bz)) (some (.one r nr br)) o) h
      (kdpWithFir D J (.ok (some fir)) (some (.one dp)) (some (.one dz)) (some (.one rng)) o') (RetIs h) := by
  obtain ⟨dt1, xs, g1, l1, rfl⟩ := hp
  obtain ⟨dt2, zs, g2, l2, rfl⟩ := hz
  obtain ⟨dt3, rs, g3, l3, rfl⟩ := hr
  unfold kdpWithFirH kdpWithFir
  simp only [DataH.ndim, Data.ndim, ne_eq, not_true_eq_false, or_self, if_false]
  nth_rw 2 [show h = h ++ [] by simp]
  refine Sim.lift (fun _ hv => ?_)
  cases hv
  dsimp only
  refine Sim.copy32 g1 (Sim.copy32 g2 (Sim.copy32 g3 (Sim.new (thsdArray_sim o.thsd n ?_))))
  have hs := thsd1_sim et [.flt .float (xs.map f32), .flt .float (zs.map f32), .flt .float (rs.map f32), .flt .float (fir.coef.map D.w)] [] n
    ((View.mk p 0 n bp).buf xs) rfl
  rw [List.append_nil] at hs
  refine Sim.bind hs ?_
  rintro t tb l - ⟨e, ht⟩
  rw [e] at ht ⊢
  refine Sim.bind (Sim.base (kernel_sim (call_shows e1 e2 e3 (p' := p) (z' := z) (r' := r) 0 (get_new (by rfl)) (get_new (by rfl)) (get_new (by rfl))
    (get_new (by rfl)) ht))) ?_
  rintro w out l' - ⟨⟨rfl, -, -, -, Y, Z, e⟩, -⟩
  have tr := triple_of (h := h) (l0 := [.flt .float (xs.map f32), .flt .float (zs.map f32), .flt .float (rs.map f32), .flt .float (fir.coef.map D.w)] ++
    newThsd o.thsd n) (Y := Y) (Z := Z) (K := out.kd) (P := out.dp) (S := out.sd)
  rw [e, List.append_assoc]
  rw [List.append_assoc] at tr
  exact Sim.pure tr

theorem Sim.putRow {δ ε : Type} {h0 l : Heap α} {a b w ray : Nat} {dt dt' : DType} {xs ys : List α} {f : Unit → HM α δ} {x : Except PyErr ε}
    {S : Heap α → δ → ε → Prop} (ha : l[a]? = some (.flt dt ys)) (hb : l[b]? = some (.flt dt' xs))
    (k : Sim h0 (f ()) (h0 ++ l.set a (.flt dt (ys.take (ray * w) ++ xs ++ ys.drop ((ray + 1) * w)))) x S) :
    Sim h0 (putRow (h0.length + a) (h0.length + b) w ray >>= f) (h0 ++ l) x S := by
  refine Sim.of_eq ?_ k
  unfold Heap.putRow
  show HM.bind (HM.bind _ _) f _ = _
  simp only [HM.bind, show Heap.getF (h0.length + b) (h0 ++ l) = _ from runs_getF (get_new hb)]
  unfold Heap.updF
  simp only [get_new ha, ← set_new]

theorem Sim.putRow' {γ : Type} {h0 l : Heap α} {a b w ray : Nat} {dt dt' : DType} {xs ys : List α} {v : γ}
    {S : Heap α → Unit → γ → Prop} (ha : l[a]? = some (.flt dt ys)) (hb : l[b]? = some (.flt dt' xs))
    (k : S (h0 ++ l.set a (.flt dt (ys.take (ray * w) ++ xs ++ ys.drop ((ray + 1) * w)))) () v) :
    Sim h0 (Heap.putRow (h0.length + a) (h0.length + b) w ray) (h0 ++ l) (.ok v) S := by
  have := Sim.putRow (f := fun _ => Pure.pure ()) (S := S) (ray := ray) (w := w) ha hb (Sim.pure k)
  refine Sim.of_eq ?_ this
  show _ = HM.bind _ _ _
  unfold HM.bind
  rcases Heap.putRow (h0.length + a) (h0.length + b) w ray (h0 ++ l) with ⟨r | r, g⟩ <;> rfl

theorem row_set {d r : List α} {k w m : Nat} (hd : d.length = k * w) (xs : List α) :
    (d ++ r).take (k * w) ++ xs ++ (d ++ r).drop ((k + 1) * w) = d ++ xs ++ r.drop w := by
  rw [← hd, List.take_left' rfl, Nat.add_mul, one_mul, ← hd, List.drop_append, List.drop_eq_nil_of_le (by omega)]
  simp

/-- one ray of the 2-D loop: a row of each result is filled in -/
theorem ray2_sim (e1 : o.nfilter = o'.nfilter) (e2 : o.bad = o'.bad) (e3 : o.stdGate = o'.stdGate) (et : ThsdIs h o.thsd o'.thsd)
    {n w nz wz nr wr : Nat} {bp bz br : Int → α} {p' z' r' : Ref} {xs zs rs : List α} (k : Nat) (hk : k < n)
    (B : Heap α) (hB : B = [.flt .float (xs.map f32), .flt .float (zs.map f32), .flt .float (rs.map f32), .flt .float (fir.coef.map D.w)] ++
      newThsd o.thsd (n * w)) {dK dP dS rK rP rS : List α} (junk : Heap α) (lK : dK.length = k * w) (lP : dP.length = k * w) (lS : dS.length = k * w) :
    Sim h (ray2H D J fir o (h.length + 3) (newRef o.thsd (h.length + 4)) (h.length + 0) (h.length + 1) (h.length + 2) w nz wz nr wr
        (fun i => f32 (bp i)) (fun i => f32 (bz i)) (fun i => f32 (br i)) (h.length + B.length, h.length + (B.length + 1), h.length + (B.length + 2)) () k)
      (h ++ (B ++ ([.flt .float (dK ++ rK), .flt .float (dP ++ rP), .flt .float (dS ++ rS)] ++ junk)))
      (ray2 D J fir o' ((List.range n).map (fun i => (rowView p' w bp i).buf xs)) ((List.range nz).map (fun i => (rowView z' wz bz i).buf zs))
        ((List.range nr).map (fun i => (rowView r' wr br i).buf rs)) k)
      (fun g _ out => (out.kd.length = w ∧ out.dp.length = w ∧ out.sd.length = w) ∧
        ∃ junk', g = h ++ (B ++ ([.flt .float (dK ++ out.kd ++ rK.drop w), .flt .float (dP ++ out.dp ++ rP.drop w),
          .flt .float (dS ++ out.sd ++ rS.drop w)] ++ junk'))) := by
  unfold ray2H ray2
  simp only [List.getElem?_map, List.getElem?_range hk, Option.map_some]
  by_cases hc : k < nz ∧ k < nr
  swap
  · rw [if_neg hc]
    have : (Option.map (fun i => (rowView z' wz bz i).buf zs) (List.range nz)[k]?) = none ∨
        (Option.map (fun i => (rowView r' wr br i).buf rs) (List.range nr)[k]?) = none := by
      rcases not_and_or.mp hc with h | h
      · left; rw [List.getElem?_eq_none (by simp; omega)]; rfl
      · right; rw [List.getElem?_eq_none (by simp; omega)]; rfl
    split
    · rename_i a b
      rcases this with h | h
      · rw [h] at a; cases a
      · rw [h] at b; cases b
    · exact Sim.raise
  rw [if_pos hc, List.getElem?_range hc.1, List.getElem?_range hc.2]
  simp only [Option.map_some]
  have hs := thsd2_sim et [.flt .float (xs.map f32), .flt .float (zs.map f32), .flt .float (rs.map f32), .flt .float (fir.coef.map D.w)]
    ([.flt .float (dK ++ rK), .flt .float (dP ++ rP), .flt .float (dS ++ rS)] ++ junk) n w k ((rowView p' w bp k).buf xs) rfl
  rw [← hB] at hs
  refine Sim.bind hs ?_
  rintro t tb l - ⟨e, ht⟩
  rw [e] at ht ⊢
  have gt : ∀ (i : Nat) (c : Cell α), i < 4 → [.flt .float (xs.map f32), .flt .float (zs.map f32), .flt .float (rs.map f32),
      .flt .float (fir.coef.map D.w)][i]? = some c →
      (h ++ (B ++ ([.flt .float (dK ++ rK), .flt .float (dP ++ rP), .flt .float (dS ++ rS)] ++ junk)))[h.length + i]? = some c := by
    intro i c hi hcell
    refine get_new ?_
    rw [hB, List.append_assoc]
    exact get_old hcell
  have hsh : Shows _ (rayCallH fir o J (h.length + 3) k (rowView (h.length + 0) w (fun i => f32 (bp i)) k) (rowView (h.length + 1) wz (fun i => f32 (bz i)) k)
      (rowView (h.length + 2) wr (fun i => f32 (br i)) k) t) (rayCall D J fir o' k ((rowView p' w bp k).buf xs) ((rowView z' wz bz k).buf zs)
        ((rowView r' wr br k).buf rs) tb) := call_shows e1 e2 e3 (p' := p') (z' := z') (r' := r') k (gt 3 _ (by omega) rfl) (gt 0 _ (by omega) rfl)
    (gt 1 _ (by omega) rfl) (gt 2 _ (by omega) rfl) ht
  refine Sim.tail (Sim.base (kernel_sim hsh)) ?_
  rintro w' out l' ⟨⟨rfl, o1, o2, o3, Y, Z, e⟩, -⟩
  have eL : ∀ i, (h ++ (B ++ ([Cell.flt DType.float (dK ++ rK), .flt .float (dP ++ rP), .flt .float (dS ++ rS)] ++ junk))).length + i =
      h.length + (B.length + (3 + (junk.length + i))) := by
    intro i; simp only [List.length_append, List.length_cons, List.length_nil]; omega
  rw [e, eL, eL, eL, List.append_assoc, List.append_assoc B, List.append_assoc]
  have gB : ∀ (t : Heap α) (i : Nat), (B ++ t)[B.length + i]? = t[i]? := by
    intro t i; rw [List.getElem?_append_right (by omega)]; congr 1; omega
  have sB : ∀ (t : Heap α) (i : Nat) c, (B ++ t).set (B.length + i) c = B ++ t.set i c := by
    intro t i c; rw [List.set_append_right _ _ (by omega)]; congr 2; omega
  have gJ : ∀ (a b c : Cell α) (s : Heap α) (i : Nat), ([a, b, c] ++ (junk ++ s))[3 + (junk.length + i)]? = s[i]? := by
    intro a b c s i
    rw [List.getElem?_append_right (by simp), List.getElem?_append_right (by simp)]
    congr 1
    simp only [List.length_cons, List.length_nil]; omega
  refine Sim.putRow (a := B.length + 0) (b := B.length + (3 + (junk.length + 2))) (by rw [gB]; rfl) (by rw [gB, gJ]; rfl) ?_
  rw [sB]
  show Sim h _ (h ++ (B ++ ([_, .flt .float (dP ++ rP), .flt .float (dS ++ rS)] ++ (junk ++ st Y Z out.kd out.dp out.sd)))) _ _
  refine Sim.putRow (a := B.length + 1) (b := B.length + (3 + (junk.length + 3))) (by rw [gB]; rfl) (by rw [gB, gJ]; rfl) ?_
  rw [sB]
  show Sim h _ (h ++ (B ++ ([_, _, .flt .float (dS ++ rS)] ++ (junk ++ st Y Z out.kd out.dp out.sd)))) _ _
  refine Sim.putRow' (a := B.length + 2) (b := B.length + (3 + (junk.length + 4))) (by rw [gB]; rfl) (by rw [gB, gJ]; rfl) ?_
  rw [sB, row_set (m := 0) lK, row_set (m := 0) lP, row_set (m := 0) lS]
  exact ⟨⟨o1, o2, o3⟩, _, rfl⟩

theorem rays2_sim (e1 : o.nfilter = o'.nfilter) (e2 : o.bad = o'.bad) (e3 : o.stdGate = o'.stdGate) (et : ThsdIs h o.thsd o'.thsd)
    {n w nz wz nr wr : Nat} {bp bz br : Int → α} {p' z' r' : Ref} {xs zs rs : List α}
    (B : Heap α) (hB : B = [.flt .float (xs.map f32), .flt .float (zs.map f32), .flt .float (rs.map f32), .flt .float (fir.coef.map D.w)] ++
      newThsd o.thsd (n * w)) : ∀ (m k : Nat) (dK dP dS rK rP rS : List α) (junk : Heap α), k + m = n → dK.length = k * w → dP.length = k * w →
      dS.length = k * w → rK.length = m * w → rP.length = m * w → rS.length = m * w →
    Sim h ((List.range' k m).foldlM (ray2H D J fir o (h.length + 3) (newRef o.thsd (h.length + 4)) (h.length + 0) (h.length + 1) (h.length + 2) w nz wz nr wr
        (fun i => f32 (bp i)) (fun i => f32 (bz i)) (fun i => f32 (br i)) (h.length + B.length, h.length + (B.length + 1), h.length + (B.length + 2))) ())
      (h ++ (B ++ ([.flt .float (dK ++ rK), .flt .float (dP ++ rP), .flt .float (dS ++ rS)] ++ junk)))
      ((List.range' k m).mapM (ray2 D J fir o' ((List.range n).map (fun i => (rowView p' w bp i).buf xs)) ((List.range nz).map (fun i => (rowView z' wz bz i).buf zs))
        ((List.range nr).map (fun i => (rowView r' wr br i).buf rs))))
      (fun g _ outs => outs.length = m ∧ (∀ o ∈ outs, o.kd.length = w ∧ o.dp.length = w ∧ o.sd.length = w) ∧
        ∃ junk', g = h ++ (B ++ ([.flt .float (dK ++ (outs.map (·.kd)).flatten), .flt .float (dP ++ (outs.map (·.dp)).flatten),
          .flt .float (dS ++ (outs.map (·.sd)).flatten)] ++ junk'))) := by
  intro m
  induction m with
  | zero =>
    intro k dK dP dS rK rP rS junk hk _ _ _ a b c
    rw [zero_mul, List.length_eq_zero_iff] at a b c
    subst a b c
    refine Sim.pure ⟨rfl, by simp, junk, by simp⟩
  | succ m ih =>
    intro k dK dP dS rK rP rS junk hk a1 a2 a3 b1 b2 b3
    rw [List.range'_succ, List.foldlM_cons, List.mapM_cons]
    refine Sim.bind (ray2_sim e1 e2 e3 et k (by omega) B hB junk a1 a2 a3) ?_
    rintro - out l - ⟨⟨c1, c2, c3⟩, junk', e⟩
    rw [e]
    have hl : (m + 1) * w - w = m * w := by rw [Nat.add_mul, one_mul]; omega
    have := ih (k + 1) (dK ++ out.kd) (dP ++ out.dp) (dS ++ out.sd) (rK.drop w) (rP.drop w) (rS.drop w) junk' (by omega)
      (by rw [List.length_append, a1, c1, Nat.add_mul, one_mul]) (by rw [List.length_append, a2, c2, Nat.add_mul, one_mul])
      (by rw [List.length_append, a3, c3, Nat.add_mul, one_mul]) (by rw [List.length_drop, b1, hl]) (by rw [List.length_drop, b2, hl])
      (by rw [List.length_drop, b3, hl])
    obtain ⟨l2, e2, this⟩ := this
    refine ⟨l2, e2, ?_⟩
    cases hx : (List.range' (k + 1) m).mapM (ray2 D J fir o' ((List.range n).map (fun i => (rowView p' w bp i).buf xs))
        ((List.range nz).map (fun i => (rowView z' wz bz i).buf zs)) ((List.range nr).map (fun i => (rowView r' wr br i).buf rs))) with
    | error y => rw [hx] at this; exact this
    | ok outs =>
      rw [hx] at this
      obtain ⟨u, e3, d1, d2, j, e5⟩ := this
      refine ⟨u, e3, by simp [d1], ?_, j, ?_⟩
      · intro o ho
        rcases List.mem_cons.mp ho with rfl | ho
        · exact ⟨c1, c2, c3⟩
        · exact d2 o ho
      · rw [e5]; simp

theorem kdp_two (e1 : o.nfilter = o'.nfilter) (e2 : o.bad = o'.bad) (e3 : o.stdGate = o'.stdGate) (et : ThsdIs h o.thsd o'.thsd)
    {p z r : Ref} {n w nz wz nr wr : Nat} {bp bz br : Int → α} {dp dz rng : List (Buf α)} (hp : DataIs h (.two p n w bp) (.two dp))
    (hz : DataIs h (.two z nz wz bz) (.two dz)) (hr : DataIs h (.two r nr wr br) (.two rng)) :
    Sim h (kdpWithFirH D J (.ok (some fir)) (some (.two p n w bp)) (some (.two z nz wz bz)) (some (.two r nr wr br)) o) h
      (kdpWithFir D J (.ok (some fir)) (some (.two dp)) (some (.two dz)) (some (.two rng)) o') (RetIs h) := by
  obtain ⟨dt1, xs, g1, l1, rfl⟩ := hp
  obtain ⟨dt2, zs, g2, l2, rfl⟩ := hz
  obtain ⟨dt3, rs, g3, l3, rfl⟩ := hr
  unfold kdpWithFirH kdpWithFir
  simp only [DataH.ndim, Data.ndim, ne_eq, not_true_eq_false, or_self, if_false]
  nth_rw 2 [show h = h ++ [] by simp]
  refine Sim.lift (fun _ hv => ?_)
  cases hv
  dsimp only
  refine Sim.copy32 g1 (Sim.copy32 g2 (Sim.copy32 g3 (Sim.new (thsdArray_sim o.thsd (n * w) (Sim.new (Sim.new (Sim.new ?_)))))))
  have hs := rays2_sim (D := D) (J := J) (fir := fir) e1 e2 e3 et (n := n) (w := w) (nz := nz) (wz := wz) (nr := nr) (wr := wr) (bp := bp) (bz := bz) (br := br)
    (p' := p) (z' := z) (r' := r) (xs := xs) (zs := zs) (rs := rs) _ rfl n 0 [] [] [] (List.replicate (n * w) (f32 o.bad)) (List.replicate (n * w) (f32 o.bad))
    (List.replicate (n * w) 100.0) [] (by omega) (by simp) (by simp) (by simp) (by simp) (by simp) (by simp)
  rw [← List.range_eq_range'] at hs
  simp only [List.length_map, List.length_range, List.nil_append, List.append_nil, List.length_append, List.length_cons, List.length_nil, List.append_assoc,
    List.singleton_append, List.cons_append] at hs ⊢
  refine Sim.bind hs ?_
  rintro - outs l - ⟨d1, d2, junk, e⟩
  rw [e]
  refine Sim.pure ⟨d1, d2, ?_⟩
  have hn : ∀ k, IsNew h (h.length + k) := fun k => List.getElem?_eq_none (by omega)
  refine ⟨hn _, hn _, hn _, ?_, ?_, ?_, get_new ?_, get_new ?_, get_new ?_⟩
  · simp
  · simp
  · simp
  all_goals
    simp only [List.getElem?_cons_succ]
    rw [List.getElem?_append_right (by omega)]
    simp

theorem kdp_sim (e1 : o.nfilter = o'.nfilter) (e2 : o.bad = o'.bad) (e3 : o.stdGate = o'.stdGate) (et : ThsdIs h o.thsd o'.thsd)
    (fir : Except PyErr (Option (Fir α))) {dp dz rng : Option (DataH α)} {dp' dz' rng' : Option (Data α)} (hp : OptDataIs h dp dp')
    (hz : OptDataIs h dz dz') (hr : OptDataIs h rng rng') :
    Sim h (kdpWithFirH D J fir dp dz rng o) h (kdpWithFir D J fir dp' dz' rng' o') (RetIs h) := by
  have nd : ∀ {d : DataH α} {v : Data α}, DataIs h d v → d.ndim = v.ndim := by
    intro d v hd
    cases d <;> cases v <;> first | rfl | exact hd.elim | exact hd
  match dp, dp', hp, dz, dz', hz, rng, rng', hr with
  | none, none, _, _, _, _, _, _, _ => exact Sim.pure0 trivial
  | some _, some _, _, none, none, _, _, _, _ => exact Sim.pure0 trivial
  | some _, some _, _, some _, some _, _, none, none, _ => exact Sim.pure0 trivial
  | some p, some p', hp, some z, some z', hz, some r, some r', hr =>
    by_cases hc : p.ndim ≠ z.ndim ∨ p.ndim ≠ r.ndim
    · have hc' : p'.ndim ≠ z'.ndim ∨ p'.ndim ≠ r'.ndim := by rw [← nd hp, ← nd hz, ← nd hr]; exact hc
      simp only [kdpWithFirH, kdpWithFir, if_pos hc, if_pos hc']
      exact Sim.pure0 trivial
    have hc' : ¬ (p'.ndim ≠ z'.ndim ∨ p'.ndim ≠ r'.ndim) := by rw [← nd hp, ← nd hz, ← nd hr]; exact hc
    match fir with
    | .error e =>
      simp only [kdpWithFirH, kdpWithFir, if_neg hc, if_neg hc']
      exact Sim.raise0
    | .ok none =>
      simp only [kdpWithFirH, kdpWithFir, if_neg hc, if_neg hc']
      exact Sim.pure0 trivial
    | .ok (some fir) =>
      have none : ∀ (q : HM α Ret2H) (x : Except PyErr (Ret2 α)), q = pure .none → x = .ok .none → Sim h q h x (RetIs h) := by
        rintro _ _ rfl rfl; exact Sim.pure0 trivial
      match p, p', hp, z, z', hz, r, r', hr with
      | .one _ _ _, .one _, hp, .one _ _ _, .one _, hz, .one _ _ _, .one _, hr => exact kdp_one e1 e2 e3 et hp hz hr
      | .one _ _ _, .one _, hp, .one _ _ _, .one _, hz, .two _ _ _ _, .two _, hr => exact none _ _ (by simp only [kdpWithFirH]; split <;> rfl) (by simp only [kdpWithFir]; split <;> rfl)
      | .one _ _ _, .one _, hp, .one _ _ _, .one _, hz, .other _, .other _, hr => exact none _ _ (by simp only [kdpWithFirH]; split <;> rfl) (by simp only [kdpWithFir]; split <;> rfl)
      | .one _ _ _, .one _, hp, .two _ _ _ _, .two _, hz, .one _ _ _, .one _, hr => exact none _ _ (by simp only [kdpWithFirH]; split <;> rfl) (by simp only [kdpWithFir]; split <;> rfl)
      | .one _ _ _, .one _, hp, .two _ _ _ _, .two _, hz, .two _ _ _ _, .two _, hr => exact none _ _ (by simp only [kdpWithFirH]; split <;> rfl) (by simp only [kdpWithFir]; split <;> rfl)
      | .one _ _ _, .one _, hp, .two _ _ _ _, .two _, hz, .other _, .other _, hr => exact none _ _ (by simp only [kdpWithFirH]; split <;> rfl) (by simp only [kdpWithFir]; split <;> rfl)
      | .one _ _ _, .one _, hp, .other _, .other _, hz, .one _ _ _, .one _, hr => exact none _ _ (by simp only [kdpWithFirH]; split <;> rfl) (by simp only [kdpWithFir]; split <;> rfl)
      | .one _ _ _, .one _, hp, .other _, .other _, hz, .two _ _ _ _, .two _, hr => exact none _ _ (by simp only [kdpWithFirH]; split <;> rfl) (by simp only [kdpWithFir]; split <;> rfl)
      | .one _ _ _, .one _, hp, .other _, .other _, hz, .other _, .other _, hr => exact none _ _ (by simp only [kdpWithFirH]; split <;> rfl) (by simp only [kdpWithFir]; split <;> rfl)
      | .two _ _ _ _, .two _, hp, .one _ _ _, .one _, hz, .one _ _ _, .one _, hr => exact none _ _ (by simp only [kdpWithFirH]; split <;> rfl) (by simp only [kdpWithFir]; split <;> rfl)
      | .two _ _ _ _, .two _, hp, .one _ _ _, .one _, hz, .two _ _ _ _, .two _, hr => exact none _ _ (by simp only [kdpWithFirH]; split <;> rfl) (by simp only [kdpWithFir]; split <;> rfl)
      | .two _ _ _ _, .two _, hp, .one _ _ _, .one _, hz, .other _, .other _, hr => exact none _ _ (by simp only [kdpWithFirH]; split <;> rfl) (by simp only [kdpWithFir]; split <;> rfl)
      | .two _ _ _ _, .two _, hp, .two _ _ _ _, .two _, hz, .one _ _ _, .one _, hr => exact none _ _ (by simp only [kdpWithFirH]; split <;> rfl) (by simp only [kdpWithFir]; split <;> rfl)
      | .two _ _ _ _, .two _, hp, .two _ _ _ _, .two _, hz, .two _ _ _ _, .two _, hr => exact kdp_two e1 e2 e3 et hp hz hr
      | .two _ _ _ _, .two _, hp, .two _ _ _ _, .two _, hz, .other _, .other _, hr => exact none _ _ (by simp only [kdpWithFirH]; split <;> rfl) (by simp only [kdpWithFir]; split <;> rfl)
      | .two _ _ _ _, .two _, hp, .other _, .other _, hz, .one _ _ _, .one _, hr => exact none _ _ (by simp only [kdpWithFirH]; split <;> rfl) (by simp only [kdpWithFir]; split <;> rfl)
      | .two _ _ _ _, .two _, hp, .other _, .other _, hz, .two _ _ _ _, .two _, hr => exact none _ _ (by simp only [kdpWithFirH]; split <;> rfl) (by simp only [kdpWithFir]; split <;> rfl)
      | .two _ _ _ _, .two _, hp, .other _, .other _, hz, .other _, .other _, hr => exact none _ _ (by simp only [kdpWithFirH]; split <;> rfl) (by simp only [kdpWithFir]; split <;> rfl)
      | .other _, .other _, hp, .one _ _ _, .one _, hz, .one _ _ _, .one _, hr => exact none _ _ (by simp only [kdpWithFirH]; split <;> rfl) (by simp only [kdpWithFir]; split <;> rfl)
      | .other _, .other _, hp, .one _ _ _, .one _, hz, .two _ _ _ _, .two _, hr => exact none _ _ (by simp only [kdpWithFirH]; split <;> rfl) (by simp only [kdpWithFir]; split <;> rfl)
      | .other _, .other _, hp, .one _ _ _, .one _, hz, .other _, .other _, hr => exact none _ _ (by simp only [kdpWithFirH]; split <;> rfl) (by simp only [kdpWithFir]; split <;> rfl)
      | .other _, .other _, hp, .two _ _ _ _, .two _, hz, .one _ _ _, .one _, hr => exact none _ _ (by simp only [kdpWithFirH]; split <;> rfl) (by simp only [kdpWithFir]; split <;> rfl)
      | .other _, .other _, hp, .two _ _ _ _, .two _, hz, .two _ _ _ _, .two _, hr => exact none _ _ (by simp only [kdpWithFirH]; split <;> rfl) (by simp only [kdpWithFir]; split <;> rfl)
      | .other _, .other _, hp, .two _ _ _ _, .two _, hz, .other _, .other _, hr => exact none _ _ (by simp only [kdpWithFirH]; split <;> rfl) (by simp only [kdpWithFir]; split <;> rfl)
      | .other _, .other _, hp, .other _, .other _, hz, .one _ _ _, .one _, hr => exact none _ _ (by simp only [kdpWithFirH]; split <;> rfl) (by simp only [kdpWithFir]; split <;> rfl)
      | .other _, .other _, hp, .other _, .other _, hz, .two _ _ _ _, .two _, hr => exact none _ _ (by simp only [kdpWithFirH]; split <;> rfl) (by simp only [kdpWithFir]; split <;> rfl)
      | .other _, .other _, hp, .other _, .other _, hz, .other _, .other _, hr => exact none _ _ (by simp only [kdpWithFirH]; split <;> rfl) (by simp only [kdpWithFir]; split <;> rfl)

/-! ## What the arguments mean, without the model's views -/

/-- memory as seen from an array with the elements `xs`: its elements, and outside them whatever is there -/
def memory (xs : List α) (beyond : Int → α) (i : Int) : α :=
  if 0 ≤ i ∧ i < xs.length then xs.getD i.toNat PyFloat.nan else beyond i

/-- the `len` elements from element `start` on -/
def segment (xs : List α) (beyond : Int → α) (start len : Nat) : Buf α := ⟨len, fun i => memory xs beyond (start + i)⟩

/-- The data argument holds these values: a 1-D array of `n` elements, or a 2-D array of `n` rows of `w` elements, row `i`
being the elements `i * w` to `i * w + w - 1` of the object. -/
def DataHas (h : Heap α) : DataH α → Data α → Prop
  | .one r n b, .one buf => ∃ dt xs, h[r]? = some (.flt dt xs) ∧ xs.length = n ∧ buf = segment xs b 0 n
  | .two r n w b, .two rays => ∃ dt xs, h[r]? = some (.flt dt xs) ∧ xs.length = n * w ∧
      rays = (List.range n).map (fun i => segment xs b (i * w) w)
  | .other k, .other k' => k = k'
  | _, _ => False

/-- an optional data argument -/
def OptDataHas (h : Heap α) : Option (DataH α) → Option (Data α) → Prop
  | none, none => True
  | some d, some v => DataHas h d v
  | _, _ => False

/-- the thresholds are these -/
def ThsdHas (h : Heap α) : ThsdH α → Thsd α → Prop
  | .scalar x, .scalar y => x = y
  | .list l, .list l' => l = l'
  | .one f r n b, .one f' buf => f = f' ∧ ∃ dt xs, h[r]? = some (.flt dt xs) ∧ xs.length = n ∧ buf = segment xs b 0 n
  | .two f r n w b, .two f' rays => f = f' ∧ ∃ dt xs, h[r]? = some (.flt dt xs) ∧ xs.length = n * w ∧
      rays = (List.range n).map (fun i => segment xs b (i * w) w)
  | _, _ => False

theorem optDataHas_iff {h : Heap α} {d : Option (DataH α)} {v : Option (Data α)} : OptDataHas h d v ↔ OptDataIs h d v := by
  rcases d with _ | (_ | _ | _) <;> rcases v with _ | (_ | _ | _) <;> exact Iff.rfl

theorem thsdHas_iff {h : Heap α} {d : ThsdH α} {v : Thsd α} : ThsdHas h d v ↔ ThsdIs h d v := by
  cases d <;> cases v <;> exact Iff.rfl

/-- **C150.** Whatever `calc_kdp_bringi` is called with (1-D or 2-D arrays that may be the same object, numbers or arrays of thresholds), every array of the
caller has the same contents after the call as before, whether it returns or raises; it raises what the value model raises, and returns three new,
different arrays with the values of the value model (`None` where that returns `None`). -/
theorem C150_calc_kdp_bringi_arrays (h : Heap α) (D : Dialect α) (J : Junk α) (fir : Except PyErr (Option (Fir α))) (dp dz rng : Option (DataH α))
    (dp' dz' rng' : Option (Data α)) (hp : OptDataHas h dp dp') (hz : OptDataHas h dz dz') (hr : OptDataHas h rng rng')
    (o : KdpOptsH α) (o' : KdpOpts α) (e1 : o.nfilter = o'.nfilter) (e2 : o.bad = o'.bad) (e3 : o.stdGate = o'.stdGate) (et : ThsdHas h o.thsd o'.thsd) :
    Unchanged h (kdpWithFirH D J fir dp dz rng o h).2 ∧
    (∀ e, kdpWithFir D J fir dp' dz' rng' o' = .error e → (kdpWithFirH D J fir dp dz rng o h).1 = .error e) ∧
    ∀ v, kdpWithFir D J fir dp' dz' rng' o' = .ok v → ∃ w, (kdpWithFirH D J fir dp dz rng o h).1 = .ok w ∧
      RetIs h (kdpWithFirH D J fir dp dz rng o h).2 w v := (kdp_sim e1 e2 e3 (thsdHas_iff.1 et) fir (optDataHas_iff.1 hp) (optDataHas_iff.1 hz)
        (optDataHas_iff.1 hr)).caller

/-- **C150, the kernel**: `calc_kdp_ray_fir` writes only to the five arrays it creates, and returns three of them, also when an argument is a view of an
array (a row of a 2-D array) or two arguments are the same array. -/
theorem C150_kernel_arrays (h : Heap α) (D : Dialect α) (H : RayH α) (R : Ray α) (s : Shows h H R) :
    Unchanged h (calcKdpRayFirH D H h).2 ∧ (∀ e, calcKdpRayFir D false R = .error e → (calcKdpRayFirH D H h).1 = .error e) ∧
    ∀ out, calcKdpRayFir D false R = .ok out → ∃ a b c, (calcKdpRayFirH D H h).1 = .ok (a, b, c) ∧
      NewTriple h (calcKdpRayFirH D H h).2 a b c out.kd out.dp out.sd := by
  obtain ⟨u, e, k⟩ := (kernel_sim (D := D) s).caller
  refine ⟨u, e, fun out ho => ?_⟩
  obtain ⟨w, hw, rfl, -, -, -, Y, Z, hg⟩ := k out ho
  refine ⟨_, _, _, hw, ?_⟩
  rw [hg]
  have := triple_of (h := h) (l0 := []) (Y := Y) (Z := Z) (K := out.kd) (P := out.dp) (S := out.sd)
  simpa using this
end

/-! ## A concrete call -/

/-- a heap with 2x3 phases (also used as ranges), 2x3 reflectivities and 2x3 thresholds -/
def exHeap : Heap QF := [.flt .float [1, 2, 3, 4, 5, 6], .flt .float [50, 50, 50, 50, 50, 50], .flt .float [12, 12, 12, 12, 12, 12]]

def exFir : Fir QF := ⟨2, 1, [0.25, 0.5, 0.25]⟩
def exJunk : Junk QF := ⟨fun _ => 0, fun _ => 0⟩

-- 2-D: phases and ranges are the same object, thresholds are an array; the caller's arrays are unchanged and the results are objects 7, 8 and 9
example : ((kdpWithFirH fortran exJunk (.ok (some exFir)) (some (.two 0 2 3 (fun _ => 0))) (some (.two 1 2 3 (fun _ => 0))) (some (.two 0 2 3 (fun _ => 0)))
      ⟨.two true 2 2 3 (fun _ => 0), 1, QF.q (-32768), 1⟩ exHeap).1.toOption.map (fun w => match w with | .two n w a b c => [n, w, a, b, c] | _ => [])) =
      some [2, 3, 7, 8, 9] ∧
    ((kdpWithFirH fortran exJunk (.ok (some exFir)) (some (.two 0 2 3 (fun _ => 0))) (some (.two 1 2 3 (fun _ => 0))) (some (.two 0 2 3 (fun _ => 0)))
      ⟨.two true 2 2 3 (fun _ => 0), 1, QF.q (-32768), 1⟩ exHeap).2.take 3) = exHeap ∧
    ((kdpWithFirH fortran exJunk (.ok (some exFir)) (some (.two 0 2 3 (fun _ => 0))) (some (.two 1 2 3 (fun _ => 0))) (some (.two 0 2 3 (fun _ => 0)))
      ⟨.two true 2 2 3 (fun _ => 0), 1, QF.q (-32768), 1⟩ exHeap).2[8]?) =
      some (.flt .float [QF.q (-32768), 2, QF.q (-32768), QF.q (-32768), 5, QF.q (-32768)]) := by decide +kernel

-- the hypotheses of C150 hold for this call
example : ∃ dp dz rng t, OptDataHas exHeap (some (.two 0 2 3 (fun _ => 0))) (some dp) ∧ OptDataHas exHeap (some (.two 1 2 3 (fun _ => 0))) (some dz) ∧
    OptDataHas exHeap (some (.two 0 2 3 (fun _ => 0))) (some rng) ∧ ThsdHas exHeap (.two true 2 2 3 (fun _ => 0)) t :=
  ⟨.two _, .two _, .two _, .two true _, ⟨.float, _, rfl, rfl, rfl⟩, ⟨.float, _, rfl, rfl, rfl⟩, ⟨.float, _, rfl, rfl, rfl⟩, rfl, .float, _, rfl, rfl, rfl⟩
end Csu.Heap
