import Verif.Props.KdpGate
/-!
# C86: what a gate with NaN reflectivity gets

C86 is false (`C86_full_false`): the adaptive window of such a gate is not its own.  Here the exact rule: the gate is treated as if it had
the reflectivity of the nearest earlier gate that has one, and before the first such gate the window is whatever the memory held.
-/
namespace Csu.Kdp
open Csu PyFloat
variable {α : Type} [PyFloat α]

/-- the reflectivity is a number, not the bad value, and so selects a window (each comparison is false for NaN) -/
def HasClass (bad d : α) : Prop :=
  (d ==. bad) = false ∧ ((d >=. 45.0) = true ∨ ((d >=. 35.0) && (d <. 45.0)) = true ∨ (d <. 35.0) = true)

/-- the reflectivity is NaN (neither the bad value nor comparable with 35 and 45) -/
def NanLike (bad d : α) : Prop := (d ==. bad) = false ∧ (d >=. 45.0) = false ∧ (d >=. 35.0) = false ∧ (d <. 35.0) = false

/-- the ray with the reflectivity of gate `i` replaced by `v` -/
def withDz (R : Ray α) (i : Int) (v : α) : Ray α := { R with dz := ⟨R.dz.len, fun k => if k = i then v else R.dz.mem k⟩ }

theorem nadpOf_class {R : Ray α} {d : α} (h : HasClass R.bad d) (m m' : Int) : nadpOf R d m = nadpOf R d m' := by
  rcases h.2 with h | h | h <;> simp only [nadpOf, h] <;> simp

theorem nadpOf_nan {R : Ray α} {d : α} (h : NanLike R.bad d) (m : Int) : nadpOf R d m = m := by
  simp [nadpOf, h.2.1, h.2.2.1, h.2.2.2]

/-- the value carried on to the next gate -/
def carry (R : Ray α) (m : Int) (k : Int) : Int := if R.dz.mem k !=. R.bad then nadpOf R (R.dz.mem k) m else m

theorem kdpGate_carry {D : Dialect α} {chk : Bool} {R : Ray α} {z : Buf α} {m k : Int} {p : α × Int}
    (h : kdpGate D chk R z m k = .ok p) : p.2 = carry R m k := by
  unfold kdpGate at h
  obtain ⟨d, hd, h⟩ := bind_ok h
  rw [rd_val hd] at h
  unfold carry
  split_ifs at h ⊢ with hb
  · obtain ⟨pts, -, h⟩ := bind_ok h
    split_ifs at h
    · obtain ⟨ab, -, h⟩ := bind_ok h
      cases h; rfl
    · cases h; rfl
  · cases h; rfl

theorem kdpGate_other {D : Dialect α} {chk : Bool} {R : Ray α} {z : Buf α} {i k : Int} {v : α} (h : k ≠ i) (m : Int) :
    kdpGate D chk (withDz R i v) z m k = kdpGate D chk R z m k := by
  have : rd chk "dz" (withDz R i v).dz k = rd chk "dz" R.dz k := by
    have hh : (withDz R i v).dz.has k = R.dz.has k := rfl
    have hm : (withDz R i v).dz.mem k = R.dz.mem k := if_neg h
    unfold rd
    rw [hh, hm]
  unfold kdpGate
  rw [this]
  rfl

/-- the same sequence of gates with the reflectivity of gate `i` replaced by one that selects the carried window -/
theorem kdpLoop_replace {D : Dialect α} {chk : Bool} {R : Ray α} {z : Buf α} {i : Int} {v : α} (hn : NanLike R.bad (R.dz.mem i))
    (hv : HasClass R.bad v) (pre post : List Int) (hpre : i ∉ pre) (hpost : i ∉ post) (m : Int)
    (hm : pre.foldl (carry R) m = nadpOf R v 0) :
    kdpLoop D chk (withDz R i v) z (pre ++ i :: post) m = kdpLoop D chk R z (pre ++ i :: post) m := by
  have hrest : ∀ (l : List Int) (m : Int), i ∉ l → kdpLoop D chk (withDz R i v) z l m = kdpLoop D chk R z l m := by
    intro l
    induction l with
    | nil => intro m _; rfl
    | cons k l ih =>
      intro m hl
      rw [List.mem_cons, not_or] at hl
      unfold kdpLoop
      rw [kdpGate_other (Ne.symm hl.1)]
      congr 1
      funext p
      obtain ⟨x, m'⟩ := p
      simp only [ih m' hl.2]
  induction pre generalizing m with
  | nil =>
    simp only [List.foldl_nil] at hm
    subst hm
    simp only [List.nil_append]
    unfold kdpLoop
    have hg : kdpGate D chk (withDz R i v) z (nadpOf R v 0) i = kdpGate D chk R z (nadpOf R v 0) i := by
      have h1 : ∀ (f g : α → Except PyErr (α × Int)), f v = g (R.dz.mem i) →
          (rd chk "dz" (withDz R i v).dz i >>= f) = (rd chk "dz" R.dz i >>= g) := by
        intro f g hfg
        have hh : (withDz R i v).dz.has i = R.dz.has i := rfl
        have hm : (withDz R i v).dz.mem i = v := if_pos rfl
        unfold rd
        rw [hh, hm]
        by_cases hc : (chk && !R.dz.has i) = true
        · rw [if_pos hc, if_pos hc]; rfl
        · rw [if_neg hc, if_neg hc]; exact hfg
      unfold kdpGate
      apply h1
      have b1 : (v !=. R.bad) = true := by simp [PyFloat.ne, hv.1]
      have b2 : (R.dz.mem i !=. R.bad) = true := by simp [PyFloat.ne, hn.1]
      have n1 : nadpOf (withDz R i v) v (nadpOf R v 0) = nadpOf R v 0 := nadpOf_class (R := R) hv _ _
      have n2 : nadpOf R (R.dz.mem i) (nadpOf R v 0) = nadpOf R v 0 := nadpOf_nan hn _
      show (if (v !=. R.bad) = true then _ else _) = (if _ then _ else _)
      rw [if_pos b1, if_pos b2]
      simp only [n1, n2]
      rfl
    rw [hg]
    congr 1
    funext p
    obtain ⟨x, m'⟩ := p
    simp only [hrest post m' hpost]
  | cons k pre ih =>
    rw [List.mem_cons, not_or] at hpre
    simp only [List.cons_append]
    unfold kdpLoop
    rw [kdpGate_other (Ne.symm hpre.1)]
    cases hk : kdpGate D chk R z m k with
    | error e => rfl
    | ok p =>
      obtain ⟨x, m'⟩ := p
      have := kdpGate_carry hk
      simp only at this
      subst this
      rw [List.foldl_cons] at hm
      show (kdpLoop D chk (withDz R i v) z _ _ >>= _) = (kdpLoop D chk R z _ _ >>= _)
      rw [ih hpre.2 _ hm]

theorem gates_split (n i : Nat) (hi : i < n) : gates n = gates i ++ (i : Int) :: rangeI (i + 1) n := by
  unfold gates rangeI
  have : ((n : Int) - 0).toNat = i + (1 + (n - (i + 1))) := by omega
  rw [this, List.range_add, List.map_append]
  congr 1
  rw [List.range_add, List.map_append, List.map_append]
  have h2 : ((n : Int) - ((i : Int) + 1)).toNat = n - (i + 1) := by omega
  rw [h2]
  simp only [List.map_map, List.range_one, List.map_cons, List.map_nil, List.singleton_append]
  congr 1
  · simp
  · apply List.map_congr_left
    intro k _
    simp only [Function.comp, Int.ofNat_eq_natCast]
    push_cast; ring

theorem calc_replace {D : Dialect α} {chk : Bool} {R : Ray α} {i : Nat} {v : α} (hi : i < R.n) (hn : NanLike R.bad (R.dz.mem i))
    (hv : HasClass R.bad v) (hm : (gates i).foldl (carry R) R.nadp0 = nadpOf R v 0) :
    calcKdpRayFir D chk (withDz R i v) = calcKdpRayFir D chk R := by
  have c : ∀ sd k yz, firPasses D chk (withDz R i v) sd k yz = firPasses D chk R sd k yz := by
    intro sd k yz
    induction k generalizing yz with
    | zero => rfl
    | succ k ih =>
      unfold firPasses
      have : firPass D chk (withDz R i v) sd yz = firPass D chk R sd yz := rfl
      rw [this]
      simp only [ih]
  have k : ∀ z : Buf α, kdpLoop D chk (withDz R i v) z (gates R.n) R.nadp0 = kdpLoop D chk R z (gates R.n) R.nadp0 := by
    intro z
    rw [gates_split R.n i hi]
    refine kdpLoop_replace hn hv _ _ (fun h => ?_) (fun h => ?_) _ hm
    · have := mem_gates.mp h; omega
    · unfold rangeI at h
      obtain ⟨a, h1, h2⟩ := List.mem_map.mp h
      simp only [Int.ofNat_eq_natCast] at h2
      omega
  unfold calcKdpRayFir
  show ((gates R.n).mapM (rd chk "dp" R.dp) >>= _) = _
  congr 1
  funext z0
  show ((gates R.n).mapM (sdAt D chk R) >>= _) = _
  congr 1
  funext sd
  show (firPasses D chk (withDz R i v) (ofList R.n sd) R.nf _ >>= _) = _
  rw [c]
  congr 1
  funext yz
  show (kdpLoop D chk (withDz R i v) yz.2 (gates R.n) R.nadp0 >>= _) = _
  rw [k]
  rfl

theorem carry_skip {R : Ray α} (l : List Int) (h : ∀ k ∈ l, (R.dz.mem k ==. R.bad) = true ∨ NanLike R.bad (R.dz.mem k)) (m : Int) :
    l.foldl (carry R) m = m := by
  induction l generalizing m with
  | nil => rfl
  | cons k l ih =>
    rw [List.foldl_cons]
    have : carry R m k = m := by
      unfold carry
      rcases h k (by simp) with hb | hb
      · simp [PyFloat.ne, hb]
      · simp [PyFloat.ne, hb.1, nadpOf_nan hb]
    rw [this]
    exact ih (fun k hk => h k (by simp [hk])) m

/-- **C86**, the exact rule.  A gate `i` with NaN reflectivity is processed, in both kernels and with the same result for the whole ray, as if
it had the reflectivity of gate `j`, the nearest earlier gate whose reflectivity is neither NaN nor bad. -/
theorem C86_nan_as_previous_partial (D : Dialect α) (chk : Bool) (R : Ray α) (i j : Nat) (hi : i < R.n) (hj : j < i)
    (hnan : NanLike R.bad (R.dz.mem i)) (hcls : HasClass R.bad (R.dz.mem j))
    (hgap : ∀ k : Nat, j < k → k < i → (R.dz.mem k ==. R.bad) = true ∨ NanLike R.bad (R.dz.mem k)) :
    calcKdpRayFir D chk (withDz R i (R.dz.mem j)) = calcKdpRayFir D chk R := by
  refine calc_replace hi hnan hcls ?_
  rw [gates_split i j hj, List.foldl_append, List.foldl_cons, carry_skip]
  · have : (R.dz.mem j !=. R.bad) = true := by simp [PyFloat.ne, hcls.1]
    simp only [carry, this, if_true]
    exact nadpOf_class hcls _ _
  · intro k hk
    unfold rangeI at hk
    obtain ⟨a, h1, h2⟩ := List.mem_map.mp hk
    have := List.mem_range.mp h1
    simp only [Int.ofNat_eq_natCast] at h2
    have := hgap (j + 1 + a) (by omega) (by omega)
    rw [show k = ((j + 1 + a : Nat) : Int) by push_cast; omega]
    exact this

/-- **C86**, before the first gate with a reflectivity: the window is what the uninitialised variable held.  If that is the width belonging to
some reflectivity `v`, the result is the one for `v` at the gate. -/
theorem C86_nan_uses_junk_partial (D : Dialect α) (chk : Bool) (R : Ray α) (i : Nat) (hi : i < R.n) (hnan : NanLike R.bad (R.dz.mem i))
    (hgap : ∀ k : Nat, k < i → (R.dz.mem k ==. R.bad) = true ∨ NanLike R.bad (R.dz.mem k)) (v : α) (hv : (v ==. R.bad) = false)
    (hw : ((v >=. 45.0) = true ∧ (v <. 45.0) = false ∧ (v <. 35.0) = false ∧ R.nadp0 = (R.order / 2 : Nat)) ∨
      ((v >=. 35.0) = true ∧ (v <. 45.0) = true ∧ (v <. 35.0) = false ∧ R.nadp0 = 2 * (R.order / 2 : Nat)) ∨
      ((v <. 35.0) = true ∧ R.nadp0 = 3 * (R.order / 2 : Nat))) :
    calcKdpRayFir D chk (withDz R i v) = calcKdpRayFir D chk R := by
  have hc : HasClass R.bad v ∧ R.nadp0 = nadpOf R v 0 := by
    rcases hw with ⟨h1, h2, h3, h4⟩ | ⟨h1, h2, h3, h4⟩ | ⟨h1, h4⟩
    · exact ⟨⟨hv, .inl h1⟩, by simp [nadpOf, h1, h2, h3, h4, Ray.half]⟩
    · exact ⟨⟨hv, .inr (.inl (by simp [h1, h2]))⟩, by simp [nadpOf, h1, h2, h3, h4, Ray.half]⟩
    · exact ⟨⟨hv, .inr (.inr h1)⟩, by simp [nadpOf, h1, h4, Ray.half]⟩
  refine calc_replace hi hnan hc.1 ?_
  rw [carry_skip]
  · exact hc.2
  · intro k hk
    have := mem_gates.mp hk
    have h := hgap k.toNat (by omega)
    rwa [show ((k.toNat : Nat) : Int) = k by omega] at h

/-- gate 3 of the ray `stale` is NaN and gate 2 has a reflectivity: the hypotheses are met and the call succeeds -/
example : (stale 50).dz.mem 3 = QF.nan ∧ HasClass (stale 50).bad ((stale 50).dz.mem 2) ∧ NanLike (stale 50).bad ((stale 50).dz.mem 3) ∧
    (calcKdpRayFir cython true (stale 50)).isOk = true := by
  refine ⟨by decide +kernel, ⟨by decide +kernel, .inl (by decide +kernel)⟩, ⟨by decide +kernel, by decide +kernel, by decide +kernel,
    by decide +kernel⟩, by decide +kernel⟩

/-- so it gets the KDP of a gate of 50 dBZ after one of 50 dBZ, and that of one of 30 dBZ after one of 30 dBZ -/
example : calcKdpRayFir cython true (withDz (stale 30) 3 30) = calcKdpRayFir cython true (stale 30) :=
  C86_nan_as_previous_partial cython true (stale 30) 3 2 (by decide) (by decide)
    ⟨by decide +kernel, by decide +kernel, by decide +kernel, by decide +kernel⟩ ⟨by decide +kernel, .inr (.inr (by decide +kernel))⟩
    (fun k h1 h2 => by omega)

end Csu.Kdp
